import Verif.Model.Player

/-!
# Player calls as sequences of steps that the audio interrupt may come between

`stop`, `close`, `playRaw` and `playWav` run in the main program; `update()` runs in the audio interrupt and may come
between any two of their steps.  Here the calls are programs of small steps on the state they share with `update()`: the
reader's fields and the object `_sourceBuffer` points to.  One step is one assignment to a shared field; fields of one
reader that are only read by a playing reader's `update()` and assigned by adjacent statements of `reset()` are one step.
The accesses are assumed to reach memory in program order (of the fields only `_playing` is `volatile`; see DESIGN.md).
-/

namespace TVP

/-- What `_sourceBuffer` points to: nothing; a usable object; an object whose buffers a call is deleting or allocating;
an object that has been deleted while the pointer still holds its address. -/
inductive Obj (σ : Type)
  | missing
  | live (s : σ)
  | busy (s : σ)
  | freed

/-- The pointer as a source state between two calls. -/
def Obj.ofOption {σ : Type} : Option σ → Obj σ
  | none => .missing
  | some s => .live s

/-- The state shared by the main program and the interrupt. -/
structure Shared (σ : Type) where
  rd : Rd := {}
  obj : Obj σ := .missing

/-- `read` (src/ResamplingReader.h:217-308) in the shared state.  Reading from an object that is deleted or being changed
is a fault of its own, whether or not a sample of it would be used. -/
def Shared.read {σ : Type} (fp : Fp) (S : Src (Option σ)) (fuel : Nat) (sh : Shared σ) (n : Nat) :
    M (List (List Int) × Shared σ) :=
  match sh.obj with
  | .missing => do
    let o ← sh.rd.read fp S fuel none n
    return (o.frames, ⟨o.r, Obj.ofOption o.s⟩)
  | .live s => do
    let o ← sh.rd.read fp S fuel (some s) n
    return (o.frames, ⟨o.r, Obj.ofOption o.s⟩)
  | .busy _ => .error .useAfterFree
  | .freed => .error .useAfterFree

/-- `update()` (src/playresmp.h:166-218) in the shared state. -/
def Shared.update {σ : Type} (fp : Fp) (S : Src (Option σ)) (fuel : Nat) (sh : Shared σ) (alloc : Nat → Bool) :
    M (Fx × Shared σ) :=
  TVP.update sh.rd.nch sh.rd.playing (sh.read fp S fuel blockSamples) sh alloc

/-- A call as a sequence of steps.  `act f k`: change the shared state, go on with `k`; `test c a b`: read the shared
state, go on with `a` or `b`; `done b`: the call returns `b`; `fail e`: the call faults. -/
inductive Prog (σ : Type)
  | done (b : Bool)
  | fail (e : Fault)
  | act (f : Shared σ → Shared σ) (k : Prog σ)
  | test (c : Shared σ → Bool) (a b : Prog σ)

/-- The call without interruption. -/
def Prog.exec {σ : Type} : Prog σ → Shared σ → M (Bool × Shared σ)
  | .done b, sh => .ok (b, sh)
  | .fail e, _ => .error e
  | .act f k, sh => k.exec (f sh)
  | .test c a b, sh => if c sh then a.exec sh else b.exec sh

/-- The call interrupted by any number of updates at any points: `Interrupted fp S (p, sh) (p', sh')` if starting with `p` still
to do in state `sh` the machine can get to having `p'` still to do in state `sh'`. -/
inductive Interrupted {σ : Type} (fp : Fp) (S : Src (Option σ)) : Prog σ × Shared σ → Prog σ × Shared σ → Prop
  | refl (x) : Interrupted fp S x x
  | act {f k sh y} : Interrupted fp S (k, f sh) y → Interrupted fp S (.act f k, sh) y
  | test {c a b sh y} : Interrupted fp S (if c sh then a else b, sh) y → Interrupted fp S (.test c a b, sh) y
  | intr {p sh fuel alloc fx sh' y} : sh.update fp S fuel alloc = .ok (fx, sh') → Interrupted fp S (p, sh') y →
      Interrupted fp S (p, sh) y

/-- `p`, then `q` (whatever `p` returns). -/
def Prog.then {σ : Type} : Prog σ → Prog σ → Prog σ
  | .done _, q => q
  | .fail e, _ => .fail e
  | .act f k, q => .act f (k.then q)
  | .test c a b, q => .test c (a.then q) (b.then q)

/-- A step that changes a field of the reader. -/
def Prog.rd {σ : Type} (f : Rd → Rd) (k : Prog σ) : Prog σ := .act (fun sh => { sh with rd := f sh.rd }) k

/-- A step that changes the object. -/
def Prog.obj {σ : Type} (f : Obj σ → Obj σ) (k : Prog σ) : Prog σ := .act (fun sh => { sh with obj := f sh.obj }) k

/-- `stop` (src/ResamplingReader.h:208-213), then `k`. -/
def stopSteps {σ : Type} (k : Prog σ) : Prog σ :=
  .test (fun sh => sh.rd.playing) (.rd (fun r => { r with playing := false }) k) k

/-- Applied to an object that can be used. -/
def Obj.onLive {σ : Type} (f : σ → Obj σ) : Obj σ → Obj σ
  | .live s => f s
  | o => o

/-- `close` of the file readers (src/ResamplingSdReader.h:50-65, src/ResamplingSerialFlashReader.h:48-61,
src/IndexableFile.h:433-452), then `k`: stop; if there is a source delete its buffers (during which it is `busy`), delete it
(the pointer is left dangling), clear the pointer. -/
def closeSteps {σ : Type} (k : Prog σ) : Prog σ :=
  stopSteps <|
  .test (fun sh => match sh.obj with | .missing => false | _ => true)
    (.obj (Obj.onLive .busy) <| .obj (fun _ => .freed) <| .obj (fun _ => .missing) k) k

/-- `reset` (src/ResamplingReader.h:580-622), then `k`. -/
def resetSteps {σ : Type} (k : Prog σ) : Prog σ :=
  .rd (fun r => { r with pts := r.reset.pts }) <|
  .rd (fun r => { r with pos1 := r.reset.pos1 }) <|
  .rd (fun r => { r with crossfade := 0 }) <|
  .rd (fun r => { r with cfOn := false }) k

/-- `setNumChannels` (src/ResamplingReader.h:663-668), then `k`. -/
def nchSteps {σ : Type} (n : Int) (k : Prog σ) : Prog σ := .rd (fun r => r.setNumChannels n) k

/-- The end of `play(filename, ...)` (src/ResamplingReader.h:151-179). -/
def finishSteps (g : Geo) (f : Dev) : Prog Cache :=
  .test (fun sh => decide (u32 sh.rd.fileSize ≤ u32 (sh.rd.header * 2)))
    (.rd (fun r => { r with playing := false }) (.done false)) <|
  .test (fun sh => decide (sh.rd.nch = 0)) (.fail .divByZero) <|
  .rd (fun r => { r with fileSamples := r.fileSamples.tdiv r.nch }) <|
  .rd (fun r => if r.loopType = .none then { r with loopStart := 0 } else r) <|
  .rd (fun r => if r.loopType = .none then { r with loopFinish := r.fileSamples } else r) <|
  .obj (fun _ => .live { dev := f }) <|
  .act (fun sh => { sh with obj := sh.obj.onLive fun c => .live (c.setLoopType sh.rd.loopType) }) <|
  .rd (fun r => r.setLoopStart r.loopStart) <|
  .act (fun sh => { sh with obj := sh.obj.onLive fun c => .live (c.setLoopStart g (sh.rd.s2s sh.rd.loopStart)) }) <|
  .rd (fun r => r.setLoopFinish r.loopFinish) <|
  .act (fun sh => { sh with obj := sh.obj.onLive fun c => .live (c.setLoopFinish g (sh.rd.s2s sh.rd.loopFinish)) }) <|
  resetSteps <|
  .obj (Obj.onLive .busy) <|
  .act (fun sh => { sh with obj := match sh.obj with
    | .busy c => .live (c.preLoad g sh.rd.pos1 (decide (sh.rd.rate ≥ 0)))
    | o => o }) <|
  .rd (fun r => { r with playing := true }) <|
  .done true

/-- The WAV part of `play(filename, ...)` (src/ResamplingReader.h:115-147) and the rest.  What is read from the file does
not depend on the shared state. -/
def wavSteps (g : Geo) (f : Dev) (junk : List Nat) : Prog Cache :=
  let (got, f) := f.read 36
  let buffer := overlay got junk
  match readWaveHeaderFromBuffer buffer {} with
  | .error e => .fail e
  | .ok (_, hdr) =>
    if hdr.bitDepth ≠ 16 then .done false
    else
      nchSteps (u16 hdr.numChannels) <|
      let (got, f) := f.read 8
      let buffer := overlay got buffer
      match readInfoTags buffer 0 with
      | .error e => .fail e
      | .ok none => .done false
      | .ok (some tags) =>
        let f := f.seek (u32 (36 + tags)).toNat
        let (got, f) := f.read 8
        let buffer := overlay got buffer
        match readDataHeader buffer 0 with
        | .error e => .fail e
        | .ok (false, _) => .done false
        | .ok (true, dh) =>
          .rd (fun r => { r with header := u32 (44 + tags) / 2 }) <|
          .rd (fun r => { r with fileSamples := dh.dataBytes / 2 }) <|
          finishSteps g f

/-- Opening the file and going on (src/ResamplingReader.h:102-180). -/
def openSteps (g : Geo) (file : Option Dev) (junk : List Nat) (isWave : Bool) : Prog Cache :=
  match file with
  | none => .done false
  | some f =>
    .rd (fun r => { r with fileSize := i32 f.size }) <|
    if isWave then wavSteps g f junk
    else .rd (fun r => { r with fileSamples := r.fileSize.tdiv 2 }) <| finishSteps g f

/-- `play(filename, isWave, numChannelsIfRaw)` (src/ResamplingReader.h:95-180). -/
def playSteps (g : Geo) (file : Option Dev) (junk : List Nat) (isWave : Bool) (n : Int) : Prog Cache :=
  closeSteps <|
  if isWave then openSteps g file junk isWave else nchSteps n (openSteps g file junk isWave)

/-- `playRaw(filename, numChannels)` and `playWav(filename)` of a player (src/playresmp.h:48-74): stop, then start. -/
def playFileSteps (g : Geo) (file : Option Dev) (junk : List Nat) (isWave : Bool) (n : Int) : Prog Cache :=
  stopSteps (playSteps g file junk isWave n)

/-- `playRaw(array, length, numChannels)` of the array reader (src/ResamplingReader.h:41-56): the pointer is set before
the reader is stopped. -/
def arrayRawSteps (data : List Int) (length n : Int) : Prog (List Int) :=
  .obj (fun _ => .live data) <|
  stopSteps <|
  .rd (fun r => { r with header := 0 }) <|
  .rd (fun r => { r with fileSize := i32 (u32 length * 2) }) <|
  .rd (fun r => { r with loopStart := 0 }) <|
  .rd (fun r => { r with loopFinish := i32 length }) <|
  .rd (fun r => { r with fileSamples := i32 length }) <|
  nchSteps n <|
  resetSteps <|
  .rd (fun r => { r with playing := true }) <|
  .done true

/-- `playWav(array)` of the array reader (src/ResamplingReader.h:66-93). -/
def arrayWavSteps (image : List Nat) : Prog (List Int) :=
  match readWaveHeaderFromBuffer image {} with
  | .error e => .fail e
  | .ok (false, _) => .done false
  | .ok (true, hdr) =>
    match readInfoTags image 36 with
    | .error e => .fail e
    | .ok none => .done false
    | .ok (some tags) =>
      match readDataHeader image (u32 (36 + tags)).toNat with
      | .error e => .fail e
      | .ok (false, _) => .done false
      | .ok (true, dh) =>
        if hdr.numChannels = 0 then .fail .divByZero
        else arrayRawSteps (toSamples (image.drop (u32 (36 + tags + 8)).toNat))
          (dh.dataBytes / u32 hdr.numChannels / 2) hdr.numChannels

/-- `playRaw(data, numSamples, numChannels)` of an array player (src/playresmp.h:76-80): stop, then start. -/
def playArraySteps (data : List Int) (length n : Int) : Prog (List Int) := stopSteps (arrayRawSteps data length n)

/-- `playWav(data)` of an array player (src/playresmp.h:98-102): stop, then start. -/
def playArrayWavSteps (image : List Nat) : Prog (List Int) := stopSteps (arrayWavSteps image)

/-- What the main program can do with a file player: the calls above, and any other assignment to a field of the reader
or of its source that leaves `_playing` alone (the `set...` functions consist of such assignments). -/
inductive FileCall
  | stop
  | close
  | playRaw (file : Option Dev) (n : Int)
  | playWav (file : Option Dev) (junk : List Nat)
  | set (f : Rd → Rd) (keeps : ∀ r, (f r).playing = r.playing)
  | setSource (f : Cache → Cache)

/-- The steps of a call. -/
def FileCall.steps (g : Geo) : FileCall → Prog Cache
  | .stop => stopSteps (.done true)
  | .close => closeSteps (.done true)
  | .playRaw file n => playFileSteps g file [] false n
  | .playWav file junk => playFileSteps g file junk true 0
  | .set f _ => .rd f (.done true)
  | .setSource f => .obj (Obj.onLive fun c => .live (f c)) (.done true)

/-- What the main program can do with an array player. -/
inductive ArrayCall
  | stop
  | playRaw (data : List Int) (length n : Int)
  | playWav (image : List Nat)
  | set (f : Rd → Rd) (keeps : ∀ r, (f r).playing = r.playing)

/-- The steps of a call. -/
def ArrayCall.steps : ArrayCall → Prog (List Int)
  | .stop => stopSteps (.done true)
  | .playRaw data length n => playArraySteps data length n
  | .playWav image => playArrayWavSteps image
  | .set f _ => .rd f (.done true)

/-- One call after the other. -/
def session {σ : Type} (calls : List (Prog σ)) : Prog σ := calls.foldr Prog.then (.done true)

/-- `setLoopStart` (src/ResamplingReader.h:631-635) of a file reader, then `k`. -/
def loopStartSteps (g : Geo) (l : Int) (k : Prog Cache) : Prog Cache :=
  .rd (fun r => r.setLoopStart l) <|
  .act (fun sh => { sh with obj := sh.obj.onLive fun c => .live (c.setLoopStart g (sh.rd.s2s sh.rd.loopStart)) }) k

/-- `setLoopFinish` (src/ResamplingReader.h:637-642) of a file reader, then `k`. -/
def loopFinishSteps (g : Geo) (l : Int) (k : Prog Cache) : Prog Cache :=
  .rd (fun r => r.setLoopFinish l) <|
  .act (fun sh => { sh with obj := sh.obj.onLive fun c => .live (c.setLoopFinish g (sh.rd.s2s sh.rd.loopFinish)) }) k

end TVP
