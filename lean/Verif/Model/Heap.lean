import Verif.Model.Player

/-!
# Memory of file players

What the library allocates and releases while file players are made, used and destroyed: reader objects, file names, source
buffer objects, block buffers and their sample memory.  The readers themselves are those of `Verif.Model.Play`; here each
pointer gets the identity of the piece of memory it points to, and a shared heap knows which pieces are allocated and how.
Allocation is assumed to succeed.
-/

namespace TVP

/-- What a piece of memory is, which says how it has to be released: a reader object (`delete`), characters (`delete []`), a
source buffer object (`delete`), a block buffer object (`delete`), samples from the heap (`delete []`), samples from the
external memory (`extmem_free`). -/
inductive Piece | reader | chars | source | buffer | samples | extSamples
  deriving DecidableEq, Repr

/-- The allocated pieces, and the identity the next one gets. -/
structure Heap where
  next : Nat := 0
  live : List (Nat × Piece) := []
  deriving DecidableEq, Repr

/-- Allocating a piece. -/
def Heap.alloc (h : Heap) (p : Piece) : Nat × Heap := (h.next, ⟨h.next + 1, h.live ++ [(h.next, p)]⟩)

/-- Releasing a piece the way pieces `p` are released; a fault unless such a piece is allocated. -/
def Heap.free (h : Heap) (p : Piece) (id : Nat) : M Heap :=
  if (id, p) ∈ h.live then .ok { h with live := h.live.erase (id, p) } else .error .useAfterFree

/-- The kind of sample memory of a block buffer, by its `bufInPSRAM`. -/
def sampleKind (ext : Bool) : Piece := if ext then .extSamples else .samples

/-- An `indexedbuffer` (src/IndexableFile.h:13-38): the object, its `buffer`, its `bufInPSRAM`. -/
structure BufMem where
  obj : Nat
  mem : Nat
  ext : Bool
  deriving DecidableEq, Repr

/-- Constructor of `indexedbuffer` (src/IndexableFile.h:16-25), with `new` (src/IndexableFile.h:384). -/
def BufMem.new (h : Heap) (ext : Bool) : BufMem × Heap :=
  let (o, h) := h.alloc .buffer
  let (m, h) := h.alloc (sampleKind ext)
  (⟨o, m, ext⟩, h)

/-- `delete x` of an `indexedbuffer` (src/IndexableFile.h:26-32, 441). -/
def BufMem.delete (b : BufMem) (h : Heap) : M Heap := do
  let h ← h.free (sampleKind b.ext) b.mem
  h.free .buffer b.obj

/-- A source buffer object: its own memory, its `_filename`, and the block buffers it has made; `bufs[k]` is the one that
the cache model knows by the address `k`. -/
structure SrcMem where
  obj : Nat
  name : Option Nat
  bufs : List BufMem
  deriving DecidableEq, Repr

/-- `delete x` for the elements of the vector, in order (src/IndexableFile.h:440-442); the vector holds the addresses `as`. -/
def deleteBufs (bufs : List BufMem) : List Nat → Heap → M Heap
  | [], h => .ok h
  | a :: as, h =>
    match bufs[a]? with
    | none => .error .useAfterFree
    | some b => do deleteBufs bufs as (← b.delete h)

/-- `if (_filename != nullptr) { delete [] _filename; ... }` (src/IndexableFile.h:446-449, src/ResamplingSdReader.h:61-64). -/
def freeName (h : Heap) : Option Nat → M Heap
  | none => .ok h
  | some n => h.free .chars n

/-- `IndexableFile::close` (src/IndexableFile.h:433-450). -/
def SrcMem.close (s : SrcMem) (c : Cache) (h : Heap) : M (SrcMem × Cache × Heap) := do
  let h ← deleteBufs s.bufs (c.bufs.map Buf.addr) h
  let h ← freeName h s.name
  return ({ s with name := none }, c.close, h)

/-- `delete _sourceBuffer`: the destructors of the derived class (src/IndexableSDFile.h:28-30) and of the base class
(src/IndexableFile.h:74-76) both call `close`. -/
def SrcMem.delete (s : SrcMem) (c : Cache) (h : Heap) : M Heap := do
  let (s, c, h) ← s.close c h
  let (s, _, h) ← s.close c h
  h.free .source s.obj

/-- A file player's reader with the memory behind its pointers: the reader object, `_filename`, `_sourceBuffer`. -/
structure Owner where
  a : FileReader := {}
  reader : Nat
  name : Option Nat := none
  src : Option SrcMem := none

/-- Constructor of a file player (src/playsdresmp.h:19-24, src/playlfsresmp.h:13-18, src/playserialflashresmp.h:18-23). -/
def Owner.construct (h : Heap) : Owner × Heap :=
  let (r, h) := h.alloc .reader
  ({ reader := r }, h)

/-- Destructor of a file player (src/playsdresmp.h:27-29, src/playlfsresmp.h:20-22, src/playserialflashresmp.h:25-27); the
readers' destructors are empty (src/ResamplingSdReader.h:31-32, src/ResamplingLfsReader.h:28-29,
src/ResamplingSerialFlashReader.h:32-33). -/
def Owner.destroy (o : Owner) (h : Heap) : M Heap := h.free .reader o.reader

/-- `close` of the file readers (src/ResamplingSdReader.h:50-65, src/ResamplingLfsReader.h:42-57,
src/ResamplingSerialFlashReader.h:47-61). -/
def Owner.close (o : Owner) (h : Heap) : M (Owner × Heap) := do
  let h ← match o.src, o.a.src with
    | some s, some c => do
      let (s, c, h) ← s.close c h
      s.delete c h
    | _, _ => pure h
  let h ← freeName h o.name
  return ({ a := o.a.close, reader := o.reader }, h)

/-- `n` block buffers made one after the other (src/IndexableFile.h:384). -/
def newBufs (ext : Bool) : Nat → Heap → List BufMem × Heap
  | 0, h => ([], h)
  | n + 1, h =>
    let (b, h) := BufMem.new h ext
    let (bs, h) := newBufs ext n h
    (b :: bs, h)

/-- The common tail of `play(filename, ...)` (src/ResamplingReader.h:151-179); `n` is `_filename`.  The source buffer copies
the name (src/IndexableFile.h:69-70); `preLoadBuffers` makes one block buffer for each address in the vector, in order
(src/IndexableFile.h:378-394). -/
def Owner.finish (g : Geo) (reader n : Nat) (r : Rd) (f : Dev) (h : Heap) : M (Bool × Owner × Heap) := do
  let (ok, a) ← playFinish g r f
  if !ok then
    let h ← h.free .chars n
    return (false, { a := a, reader := reader }, h)
  let (o, h) := h.alloc .source
  let (m, h) := h.alloc .chars
  let (bs, h) := newBufs a.rd.psram ((a.src.map fun c => c.bufs.length).getD 0) h
  return (true, { a := a, reader := reader, name := some n, src := some ⟨o, some m, bs⟩ }, h)

/-- `play(filename, isWave, numChannelsIfRaw)` (src/ResamplingReader.h:95-180). -/
def Owner.playFile (g : Geo) (o : Owner) (file : Option Dev) (junk : List Nat) (isWave : Bool) (nchRaw : Int) (h : Heap) :
    M (Bool × Owner × Heap) := do
  let (o, h) ← o.close h
  let r := if isWave then o.a.rd else o.a.rd.setNumChannels nchRaw
  let (n, h) := h.alloc .chars
  match file with
  | none =>
    let h ← h.free .chars n
    return (false, { a := { rd := r, src := none }, reader := o.reader }, h)
  | some f =>
    let r := { r with fileSize := i32 f.size }
    if isWave then
      let (ok, r, f) ← playParseWav r f junk
      if !ok then return (false, { a := { rd := r, src := none }, reader := o.reader, name := some n }, h)
      Owner.finish g o.reader n r f h
    else
      Owner.finish g o.reader n { r with fileSamples := r.fileSize.tdiv 2 } f h

/-- What happens to a file player between its construction and its destruction: calls from the sketch (`set` is any call
that only assigns fields of the reader, among them `setPlaybackRate`, `setBufferInPSRAM`), `update()` and the serviced
events. -/
inductive Use
  | stop
  | close
  | restart
  | loop (n : Int)
  | setLoopType (t : LoopType)
  | setLoopStart (l : Int)
  | setLoopFinish (l : Int)
  | set (f : Rd → Rd)
  | playRaw (file : Option Dev) (n : Int)
  | playWav (file : Option Dev) (junk : List Nat)
  | update (fuel : Nat) (alloc : Nat → Bool)
  | service (fuel : Nat) (e : Ev)

/-- The effect on the reader alone. -/
def Use.run (fp : Fp) (g : Geo) (nullOk : Bool) (a : FileReader) : Use → M FileReader
  | .stop => .ok { a with rd := a.rd.stop }
  | .close => .ok a.close
  | .restart => .ok a.play
  | .loop n => a.loop n
  | .setLoopType t => .ok (a.setLoopType t)
  | .setLoopStart l => .ok (a.setLoopStart g l)
  | .setLoopFinish l => .ok (a.setLoopFinish g l)
  | .set f => .ok { a with rd := f a.rd }
  | .playRaw file n => do return (← a.playRaw g file n).2
  | .playWav file junk => do return (← a.playWav g file junk).2
  | .update fuel alloc => do return (← a.update fp g nullOk fuel alloc).2
  | .service fuel e => a.service fp g fuel e

/-- The effect on the reader and the memory.  Only `close` and `play(filename, ...)` allocate or release memory; the event
`close` calls the former (src/playresmp.h:37-38). -/
def Use.runMem (fp : Fp) (g : Geo) (nullOk : Bool) (o : Owner) (h : Heap) (u : Use) : M (Owner × Heap) :=
  match u with
  | .close => o.close h
  | .service _ .close => o.close h
  | .playRaw file n => do return (← o.playFile g file [] false n h).2
  | .playWav file junk => do return (← o.playFile g file junk true 0 h).2
  | u => do return ({ o with a := ← u.run fp g nullOk o.a }, h)

/-- One event in a program with several file players: one is made, the `k`-th is destroyed, the `k`-th is used. -/
inductive SysOp
  | construct
  | destroy (k : Nat)
  | use (k : Nat) (u : Use)

/-- The readers of the existing players, without memory. -/
def SysOp.run (fp : Fp) (g : Geo) (nullOk : Bool) (ps : List FileReader) : SysOp → M (List FileReader)
  | .construct => .ok (ps ++ [{}])
  | .destroy k => .ok (ps.eraseIdx k)
  | .use k u =>
    match ps[k]? with
    | none => .ok ps
    | some a => do return ps.set k (← u.run fp g nullOk a)

/-- The existing players and the heap they share. -/
def SysOp.runMem (fp : Fp) (g : Geo) (nullOk : Bool) (ps : List Owner) (h : Heap) : SysOp → M (List Owner × Heap)
  | .construct => let (o, h) := Owner.construct h; .ok (ps ++ [o], h)
  | .destroy k =>
    match ps[k]? with
    | none => .ok (ps, h)
    | some o => do return (ps.eraseIdx k, ← o.destroy h)
  | .use k u =>
    match ps[k]? with
    | none => .ok (ps, h)
    | some o => do
      let (o, h) ← u.runMem fp g nullOk o h
      return (ps.set k o, h)

/-- A program, without memory. -/
def runReaders (fp : Fp) (g : Geo) (nullOk : Bool) : List SysOp → List FileReader → M (List FileReader)
  | [], ps => .ok ps
  | s :: ss, ps => do runReaders fp g nullOk ss (← s.run fp g nullOk ps)

/-- A program, with memory. -/
def runSystem (fp : Fp) (g : Geo) (nullOk : Bool) : List SysOp → List Owner × Heap → M (List Owner × Heap)
  | [], x => .ok x
  | s :: ss, x => do runSystem fp g nullOk ss (← s.runMem fp g nullOk x.1 x.2)

end TVP
