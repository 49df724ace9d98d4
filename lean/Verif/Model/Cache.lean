import Verif.Fp
import Verif.Model.File

/-!
# `IndexableFile` (src/IndexableFile.h): the block cache of a streamed file

`BUFFER_SIZE = 2 ^ shift` samples, `MAX_NUM_BUFFERS = N`.
-/

namespace TVP

/-- `loop_type` (src/loop_type.h:8-12). -/
inductive LoopType | none | repeat | pingpong
  deriving DecidableEq, Repr

/-- Buffer status (src/IndexableFile.h:51). -/
inductive BStatus | constructed | loaded | unused | read
  deriving DecidableEq, Repr

/-- `indexedbuffer` (src/IndexableFile.h:14-38).  `data` are the bytes of `buffer[]`; `addr` stands for the object's
address (the how-many-th buffer of the vector it was when allocated). -/
structure Buf where
  addr   : Nat
  index  : Int
  size   : Int
  status : BStatus
  data   : List Nat
  deriving DecidableEq, Repr

/-- Template parameters (src/IndexableFile.h:46) and the content of uninitialised memory (`junk n` are
the bytes found in the `n`-th buffer allocated). -/
structure Geo where
  shift : Nat
  N     : Nat
  junk  : Nat → List Nat

/-- `BUFFER_SIZE` -/
def Geo.B (g : Geo) : Nat := 2 ^ g.shift

/-- The fields of `IndexableFile` (src/IndexableFile.h:57-60, 457-469). `fails` is unbounded here. -/
structure Cache where
  bufs : List Buf := []
  dev : Dev
  fails : Nat := 0
  prevRate : ℚ := 0
  loopType : LoopType := .none
  loopStartBlk : Int := 0
  loopFinishBlk : Int := 0

/-- Sample `k` of a buffer's memory: two bytes, little endian, signed. -/
def sampleAt (data : List Nat) (k : Nat) : Int :=
  i16 (le16 (data.getD (2 * k) 0) (data.getD (2 * k + 1) 0))

/-- `find_with_index` (src/IndexableFile.h:474-483) with the marking of the match as read of
`operator[]` (line 428).  Returns the updated vector and the matching buffer. -/
def findWithIndex (k : Int) : List Buf → List Buf × Option Buf
  | [] => ([], none)
  | x :: xs =>
    if x.index = k ∧ x.size > 0 then ({ x with status := .read } :: xs, some x)
    else
      let rest := findWithIndex k xs
      ((if x.status = .read then x else { x with status := .unused }) :: rest.1, rest.2)

/-- `operator[]` (src/IndexableFile.h:418-431). -/
def Cache.get (g : Geo) (c : Cache) (i : Int) : Int × Cache :=
  match findWithIndex (u32 (i / g.B)) c.bufs with
  | (bs, some m) => (sampleAt m.data (i % g.B).toNat, { c with bufs := bs })
  | (bs, none) => (0, { c with bufs := bs, fails := c.fails + 1 })

/-- `loadBuffer` (src/IndexableFile.h:337-363, `TEENSYDUINO` branch): the loaded buffer, the file
afterwards and the number of bytes read. -/
def loadBuffer (g : Geo) (d : Dev) (b : Buf) (i : Int) : Buf × Dev × Nat :=
  let seekPos := u32 (2 * u32 (i - i % g.B))
  let d := d.seek seekPos.toNat
  let (got, d) := d.read (2 * g.B)
  ({ b with index := u32 (i / g.B), size := i16 got.length, status := .loaded,
            data := overlay got b.data }, d, got.length)

/-- `preLoadBuffers` loop (src/IndexableFile.h:378-404) from buffer number `bufn`; `numInVector` is the
vector length before the loop, `left` the iterations left. -/
def preLoadLoop (g : Geo) (numInVector : Nat) (forwards : Bool) :
    (left : Nat) → (bufn : Nat) → Cache → Int → Cache
  | 0, _, c, _ => c
  | left + 1, bufn, c, i =>
    let bufs := if bufn ≥ numInVector
      then c.bufs ++ [{ addr := bufn, index := 0, size := 0, status := .constructed, data := g.junk bufn }]
      else c.bufs
    match bufs[bufn]? with
    | none => c
    | some buf =>
      let (buf, dev, loaded) := loadBuffer g c.dev buf i
      let c := { c with bufs := bufs.set bufn buf, dev := dev }
      if loaded < g.B then c
      else preLoadLoop g numInVector forwards left (bufn + 1) c
            (i32 (if forwards then i + g.B else i - g.B))

/-- `preLoadBuffers` (src/IndexableFile.h:369-407). -/
def Cache.preLoad (g : Geo) (c : Cache) (i : Int) (forwards : Bool) : Cache :=
  preLoadLoop g c.bufs.length forwards g.N 0 c i

/-- `findMaxBuffer()->index` (src/IndexableFile.h:267-296). -/
def maxIndex (b : Buf) (bs : List Buf) : Int :=
  bs.foldl (fun m x => if x.index > m then x.index else m) b.index

/-- `findMinBuffer()->index` (src/IndexableFile.h:301-330). -/
def minIndex (b : Buf) (bs : List Buf) : Int :=
  bs.foldl (fun m x => if x.index < m then x.index else m) b.index

/-- `bufferAction_e` (src/IndexableFile.h:49). -/
inductive BufAction | nop | move | reverse
  deriving DecidableEq, Repr

/-- `_buffers[MAX_NUM_BUFFERS - 1]` (src/IndexableFile.h:137,149,172,184). -/
def lastSlot (g : Geo) (bs : List Buf) : M Buf :=
  match bs[g.N - 1]? with
  | some b => .ok b
  | none => .error .outOfBounds

/-- The decision part of one iteration of `triggerReload` (src/IndexableFile.h:113-194): the block to
load (if any; already shifted to a sample number) and what to do with the vector. -/
def reloadDecide (g : Geo) (c : Cache) (rate : ℚ) (b : Buf) : M (Option Int × BufAction) := do
  if rate ≥ 0 then
    let nextIdx := i32 (maxIndex b c.bufs + 1)
    match c.loopType with
    | .none => return (some (i32 (nextIdx * g.B)), .move)
    | .repeat =>
      if nextIdx > c.loopFinishBlk then
        let nextLast := i32 (← lastSlot g c.bufs).index
        if nextLast + 1 = nextIdx then return (some (i32 (c.loopStartBlk * g.B)), .move)
        else return (some (i32 ((nextLast + 1) * g.B)), .move)
      else return (some (i32 (nextIdx * g.B)), .move)
    | .pingpong =>
      if nextIdx > c.loopFinishBlk then
        if (← lastSlot g c.bufs).status = .read then return (none, .reverse)
        else return (none, .nop)
      else return (some (i32 (nextIdx * g.B)), .move)
  else
    let nextIdx := i32 (minIndex b c.bufs - 1)
    match c.loopType with
    | .none => return (if nextIdx < 0 then none else some (i32 (nextIdx * g.B)), .move)
    | .repeat =>
      if nextIdx < c.loopStartBlk then
        let nextLast := i32 (← lastSlot g c.bufs).index
        if nextLast - 1 = nextIdx then return (some (i32 (c.loopFinishBlk * g.B)), .move)
        else return (some (i32 ((nextLast - 1) * g.B)), .move)
      else return (some (i32 (nextIdx * g.B)), .move)
    | .pingpong =>
      if nextIdx < c.loopStartBlk then
        if (← lastSlot g c.bufs).status = .read then return (none, .reverse)
        else return (none, .nop)
      else return (some (i32 (nextIdx * g.B)), .move)

/-- Loading of the front buffer (src/IndexableFile.h:196-197). -/
def reloadLoad (g : Geo) (c : Cache) (b : Buf) (rest : List Buf) (i : Option Int) : Cache :=
  match i with
  | none => c
  | some i =>
    let (b', dev, _) := loadBuffer g c.dev b i
    { c with bufs := b' :: rest, dev := dev }

/-- Reordering of the vector (src/IndexableFile.h:206-220). -/
def reloadReorder (c : Cache) (a : BufAction) : Cache :=
  match a with
  | .reverse => { c with bufs := c.bufs.reverse, prevRate := -c.prevRate }
  | .move => { c with bufs := c.bufs.tail ++ c.bufs.head?.toList }
  | .nop => c

/-- The `while` loop of `triggerReload` (src/IndexableFile.h:111-231). -/
def reloadLoop (g : Geo) (rate : ℚ) : (fuel : Nat) → Cache → M Cache
  | 0, c =>
    match c.bufs with
    | [] => .ok c
    | b :: _ => if b.status = .unused then .error .hang else .ok c
  | fuel + 1, c =>
    match c.bufs with
    | [] => .ok c
    | b :: rest =>
      if b.status = .unused then do
        let (load, act) ← reloadDecide g c rate b
        let c := reloadReorder (reloadLoad g c b rest load) act
        if act = .nop then return c
        reloadLoop g rate fuel c
      else .ok c

/-- `resetStatus` (src/IndexableFile.h:237-245). -/
def Cache.resetStatus (c : Cache) : Cache :=
  { c with bufs := c.bufs.map fun b => { b with status := .loaded } }

/-- The direction used while reloading (src/IndexableFile.h:98-109). -/
def reloadRate (c : Cache) (rate : ℚ) : ℚ :=
  if c.loopType = .pingpong ∧ ((rate ≥ 0 ∧ c.prevRate < 0) ∨ (rate < 0 ∧ c.prevRate ≥ 0))
  then c.prevRate else rate

/-- `triggerReload` (src/IndexableFile.h:96-235). -/
def Cache.triggerReload (g : Geo) (fuel : Nat) (c : Cache) (rate : ℚ) : M Cache := do
  let c ← reloadLoop g (reloadRate c rate) fuel c
  let c := c.resetStatus
  return if c.prevRate = 0 then { c with prevRate := rate } else c

/-- `setLoopType` (src/IndexableFile.h:452). -/
def Cache.setLoopType (c : Cache) (t : LoopType) : Cache := { c with loopType := t }
/-- `setLoopStart` (src/IndexableFile.h:453); the argument is converted to `int32_t`. -/
def Cache.setLoopStart (g : Geo) (c : Cache) (l : Int) : Cache := { c with loopStartBlk := i32 l / g.B }
/-- `setLoopFinish` (src/IndexableFile.h:454). -/
def Cache.setLoopFinish (g : Geo) (c : Cache) (l : Int) : Cache := { c with loopFinishBlk := i32 l / g.B }

/-- `close` (src/IndexableFile.h:433-450), as far as the vector is concerned. -/
def Cache.close (c : Cache) : Cache := { c with bufs := [] }

end TVP
