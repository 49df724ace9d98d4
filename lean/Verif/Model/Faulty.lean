import Verif.Model.Player
import Verif.Spec.Late

/-!
# Reads that fail (src/IndexableFile.h)

`_file.read` need not deliver what was asked for.  These are the functions of `Verif.Model.Cache`, `Verif.Model.Play` and
`Verif.Model.Player` that load buffers, with the result of each read of the file given: `rs` are the results of the reads
to come, and the reads after these succeed.
-/

namespace TVP

/-- What a `read` of a block does.  `all`: as `Dev.read` says.  `short n`: `n` bytes at most are delivered.  `error`: the
result is −1 (as `size_t`), the buffer is left with the bytes `left` and the file at `cur`.  External, assumed. -/
inductive ReadResult
  | all
  | short (n : Nat)
  | error (left : List Nat) (cur : Nat)
  deriving DecidableEq, Repr

/-- `loadBuffer` (src/IndexableFile.h:337-363, `TEENSYDUINO` branch): nothing is made of what `read` returned but
`buffer_size`, an `int16_t` (line 34), and the result, a `size_t`. -/
def loadBufferF (g : Geo) (d : Dev) (b : Buf) (i : Int) : ReadResult → Buf × Dev × Nat
  | .all => loadBuffer g d b i
  | .short n =>
    let seekPos := u32 (2 * u32 (i - i % g.B))
    let d := d.seek seekPos.toNat
    let (got, d) := d.read (min n (2 * g.B))
    ({ b with index := u32 (i / g.B), size := i16 got.length, status := .loaded,
              data := overlay got b.data }, d, got.length)
  | .error left cur =>
    ({ b with index := u32 (i / g.B), size := -1, status := .loaded, data := left }, { d with cur := cur }, 4294967295)

/-- `preLoadBuffers` loop (src/IndexableFile.h:378-404). -/
def preLoadLoopF (g : Geo) (numInVector : Nat) (forwards : Bool) :
    (left : Nat) → (bufn : Nat) → Cache → Int → List ReadResult → Cache × List ReadResult
  | 0, _, c, _, rs => (c, rs)
  | left + 1, bufn, c, i, rs =>
    let bufs := if bufn ≥ numInVector
      then c.bufs ++ [{ addr := bufn, index := 0, size := 0, status := .constructed, data := g.junk bufn }]
      else c.bufs
    match bufs[bufn]? with
    | none => (c, rs)
    | some buf =>
      let (buf, dev, loaded) := loadBufferF g c.dev buf i (rs.headD .all)
      let c := { c with bufs := bufs.set bufn buf, dev := dev }
      if loaded < g.B then (c, rs.tail)
      else preLoadLoopF g numInVector forwards left (bufn + 1) c
            (i32 (if forwards then i + g.B else i - g.B)) rs.tail

/-- `preLoadBuffers` (src/IndexableFile.h:369-407). -/
def Cache.preLoadF (g : Geo) (c : Cache) (i : Int) (forwards : Bool) (rs : List ReadResult) : Cache × List ReadResult :=
  preLoadLoopF g c.bufs.length forwards g.N 0 c i rs

/-- Loading of the front buffer (src/IndexableFile.h:196-197). -/
def reloadLoadF (g : Geo) (c : Cache) (b : Buf) (rest : List Buf) (i : Option Int) (rs : List ReadResult) : Cache × List ReadResult :=
  match i with
  | none => (c, rs)
  | some i =>
    let (b', dev, _) := loadBufferF g c.dev b i (rs.headD .all)
    ({ c with bufs := b' :: rest, dev := dev }, rs.tail)

/-- The `while` loop of `triggerReload` (src/IndexableFile.h:111-231). -/
def reloadLoopF (g : Geo) (rate : ℚ) : (fuel : Nat) → Cache → List ReadResult → M (Cache × List ReadResult)
  | 0, c, rs =>
    match c.bufs with
    | [] => .ok (c, rs)
    | b :: _ => if b.status = .unused then .error .hang else .ok (c, rs)
  | fuel + 1, c, rs =>
    match c.bufs with
    | [] => .ok (c, rs)
    | b :: rest =>
      if b.status = .unused then do
        let (load, act) ← reloadDecide g c rate b
        let x := reloadLoadF g c b rest load rs
        let c := reloadReorder x.1 act
        if act = .nop then return (c, x.2)
        reloadLoopF g rate fuel c x.2
      else .ok (c, rs)

/-- `triggerReload` (src/IndexableFile.h:96-235). -/
def Cache.triggerReloadF (g : Geo) (fuel : Nat) (c : Cache) (rate : ℚ) (rs : List ReadResult) : M (Cache × List ReadResult) := do
  let x ← reloadLoopF g (reloadRate c rate) fuel c rs
  let c := x.1.resetStatus
  return (if c.prevRate = 0 then { c with prevRate := rate } else c, x.2)

/-- The common tail of `play(filename, ...)` (src/ResamplingReader.h:151-179). -/
def playFinishF (g : Geo) (r : Rd) (f : Dev) (rs : List ReadResult) : M (Bool × FileReader × List ReadResult) := do
  if u32 r.fileSize ≤ u32 (r.header * 2) then
    return (false, { rd := { r with playing := false }, src := none }, rs)
  if r.nch = 0 then throw .divByZero
  let r := { r with fileSamples := r.fileSamples.tdiv r.nch }
  let r := if r.loopType = .none then { r with loopStart := 0, loopFinish := r.fileSamples } else r
  let a : FileReader := { rd := r, src := some { dev := f } }
  let a := a.setLoopType r.loopType
  let a := a.setLoopStart g r.loopStart
  let a := a.setLoopFinish g r.loopFinish
  let rd := a.rd.reset
  match a.src with
  | none => return (true, { rd := { rd with playing := true }, src := none }, rs)
  | some c =>
    let x := c.preLoadF g rd.pos1 (decide (rd.rate ≥ 0)) rs
    return (true, { rd := { rd with playing := true }, src := some x.1 }, x.2)

/-- `play(filename, isWave, numChannelsIfRaw)` (src/ResamplingReader.h:95-180).  The reads of a WAV header succeed. -/
def FileReader.playFileF (g : Geo) (a : FileReader) (file : Option Dev) (junk : List Nat)
    (isWave : Bool) (nchRaw : Int) (rs : List ReadResult) : M (Bool × FileReader × List ReadResult) := do
  let a := a.close
  let r := if isWave then a.rd else a.rd.setNumChannels nchRaw
  match file with
  | none => return (false, { rd := r, src := none }, rs)
  | some f =>
    let r := { r with fileSize := i32 f.size }
    if isWave then
      let (ok, r, f) ← playParseWav r f junk
      if !ok then return (false, { rd := r, src := none }, rs)
      playFinishF g r f rs
    else
      playFinishF g { r with fileSamples := r.fileSize.tdiv 2 } f rs

/-- `playWav(filename)` (src/ResamplingReader.h:196-198). -/
def FileReader.playWavF (g : Geo) (a : FileReader) (file : Option Dev) (junk : List Nat) (rs : List ReadResult) :
    M (Bool × FileReader × List ReadResult) := a.playFileF g file junk true 0 rs
/-- `playRaw(filename, numChannels)` (src/ResamplingReader.h:192-194). -/
def FileReader.playRawF (g : Geo) (a : FileReader) (file : Option Dev) (n : Int) (rs : List ReadResult) :
    M (Bool × FileReader × List ReadResult) := a.playFileF g file [] false n rs

/-- `event_response` for a file player (src/playresmp.h:23-42). -/
def FileReader.serviceF (fp : Fp) (g : Geo) (fuel : Nat) (a : FileReader) (rs : List ReadResult) : Ev → M (FileReader × List ReadResult)
  | .reload =>
    match a.src with
    | none => return (a, rs)
    | some c => do
      let x ← c.triggerReloadF g fuel (fp.f.rnd a.rd.rate) rs
      return ({ a with src := some x.1 }, x.2)
  | .close => return (a.close, rs)

/-- Running the pending event (src/AudioEventResponder.h:160-173). -/
def FilePlayer.runEventF (fp : Fp) (g : Geo) (fuel : Nat) (p : FilePlayer) (rs : List ReadResult) : M (FilePlayer × List ReadResult) :=
  match p.pending with
  | none => .ok (p, rs)
  | some e => do
    let x ← p.rdr.serviceF fp g fuel rs e
    return (⟨x.1, none⟩, x.2)

/-- A file player through a list of turns; `update()` does not read the file. -/
def fileTurnsF (fp : Fp) (g : Geo) (nullOk : Bool) (fuel : Nat) : FilePlayer → List ReadResult → List Spec.Turn → M (List Fx × FilePlayer × List ReadResult)
  | p, rs, [] => .ok ([], p, rs)
  | p, rs, .update al :: ts => do
    let (fx, p) ← p.update fp g nullOk fuel al
    let (fxs, p) ← fileTurnsF fp g nullOk fuel p rs ts
    return (fx :: fxs, p)
  | p, rs, .poll :: ts => do
    let (p, rs) ← p.runEventF fp g fuel rs
    fileTurnsF fp g nullOk fuel p rs ts
  | p, rs, .speed v :: ts => fileTurnsF fp g nullOk fuel { p with rdr := { p.rdr with rd := p.rdr.rd.setPlaybackRate v } } rs ts

end TVP
