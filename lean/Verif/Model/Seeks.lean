import Verif.Model.Faulty

/-!
# Where the file is read (src/IndexableFile.h)

The functions of `Verif.Model.Faulty` that load buffers, with the places in the file where they do so as the result: one
`_file.seek` to the place and one `_file.read` of a block there for each call of `loadBuffer`, in the order of the calls.
What becomes of the buffers is taken from `Verif.Model.Faulty`.
-/

namespace TVP

/-- `seekPos` of `loadBuffer` (src/IndexableFile.h:340-348). -/
def seekAt (g : Geo) (i : Int) : Nat := (u32 (2 * u32 (i - i % g.B))).toNat

/-- `preLoadBuffers` loop (src/IndexableFile.h:378-404). -/
def preLoadSeeks (g : Geo) (numInVector : Nat) (forwards : Bool) : (left : Nat) → (bufn : Nat) → Cache → Int → List ReadResult → List Nat
  | 0, _, _, _, _ => []
  | left + 1, bufn, c, i, rs =>
    let bufs := if bufn ≥ numInVector
      then c.bufs ++ [{ addr := bufn, index := 0, size := 0, status := .constructed, data := g.junk bufn }]
      else c.bufs
    match bufs[bufn]? with
    | none => []
    | some buf =>
      let (buf, dev, loaded) := loadBufferF g c.dev buf i (rs.headD .all)
      let c := { c with bufs := bufs.set bufn buf, dev := dev }
      seekAt g i :: if loaded < g.B then []
        else preLoadSeeks g numInVector forwards left (bufn + 1) c
            (i32 (if forwards then i + g.B else i - g.B)) rs.tail

/-- The `while` loop of `triggerReload` (src/IndexableFile.h:111-231). -/
def reloadSeeks (g : Geo) (rate : ℚ) : (fuel : Nat) → Cache → List ReadResult → List Nat
  | 0, _, _ => []
  | fuel + 1, c, rs =>
    match c.bufs with
    | [] => []
    | b :: rest =>
      if b.status = .unused then
        match reloadDecide g c rate b with
        | .error _ => []
        | .ok (load, act) =>
          let x := reloadLoadF g c b rest load rs
          let c := reloadReorder x.1 act
          load.toList.map (seekAt g) ++ if act = .nop then [] else reloadSeeks g rate fuel c x.2
      else []

/-- The common tail of `play(filename, ...)` (src/ResamplingReader.h:151-179). -/
def playFinishSeeks (g : Geo) (r : Rd) (f : Dev) (rs : List ReadResult) : M (List Nat) := do
  if u32 r.fileSize ≤ u32 (r.header * 2) then
    return []
  if r.nch = 0 then throw .divByZero
  let r := { r with fileSamples := r.fileSamples.tdiv r.nch }
  let r := if r.loopType = .none then { r with loopStart := 0, loopFinish := r.fileSamples } else r
  let a : FileReader := { rd := r, src := some { dev := f } }
  let a := a.setLoopType r.loopType
  let a := a.setLoopStart g r.loopStart
  let a := a.setLoopFinish g r.loopFinish
  let rd := a.rd.reset
  match a.src with
  | none => return []
  | some c => return preLoadSeeks g c.bufs.length (decide (rd.rate ≥ 0)) g.N 0 c rd.pos1 rs

/-- `play(filename, isWave, numChannelsIfRaw)` (src/ResamplingReader.h:95-180), the reads of a WAV header left out. -/
def FileReader.playFileSeeks (g : Geo) (a : FileReader) (file : Option Dev) (junk : List Nat)
    (isWave : Bool) (nchRaw : Int) (rs : List ReadResult) : M (List Nat) := do
  let a := a.close
  let r := if isWave then a.rd else a.rd.setNumChannels nchRaw
  match file with
  | none => return []
  | some f =>
    let r := { r with fileSize := i32 f.size }
    if isWave then
      let (ok, r, f) ← playParseWav r f junk
      if !ok then return []
      playFinishSeeks g r f rs
    else
      playFinishSeeks g { r with fileSamples := r.fileSize.tdiv 2 } f rs

/-- `playWav(filename)` (src/ResamplingReader.h:196-198). -/
def FileReader.playWavSeeks (g : Geo) (a : FileReader) (file : Option Dev) (junk : List Nat) (rs : List ReadResult) : M (List Nat) :=
  a.playFileSeeks g file junk true 0 rs
/-- `playRaw(filename, numChannels)` (src/ResamplingReader.h:192-194). -/
def FileReader.playRawSeeks (g : Geo) (a : FileReader) (file : Option Dev) (n : Int) (rs : List ReadResult) : M (List Nat) :=
  a.playFileSeeks g file [] false n rs

/-- Running the pending event (src/AudioEventResponder.h:160-173, src/playresmp.h:23-42, src/IndexableFile.h:96-110). -/
def FilePlayer.eventSeeks (fp : Fp) (g : Geo) (fuel : Nat) (p : FilePlayer) (rs : List ReadResult) : List Nat :=
  match p.pending, p.rdr.src with
  | some .reload, some c => reloadSeeks g (reloadRate c (fp.f.rnd p.rdr.rd.rate)) fuel c rs
  | _, _ => []

/-- A file player through a list of turns, as in `fileTurnsF`. -/
def turnsSeeks (fp : Fp) (g : Geo) (nullOk : Bool) (fuel : Nat) : FilePlayer → List ReadResult → List Spec.Turn → List Nat
  | _, _, [] => []
  | p, rs, .update al :: ts =>
    match p.update fp g nullOk fuel al with
    | .error _ => []
    | .ok x => turnsSeeks fp g nullOk fuel x.2 rs ts
  | p, rs, .poll :: ts =>
    p.eventSeeks fp g fuel rs ++
      match p.runEventF fp g fuel rs with
      | .error _ => []
      | .ok x => turnsSeeks fp g nullOk fuel x.1 x.2 ts
  | p, rs, .speed v :: ts => turnsSeeks fp g nullOk fuel { p with rdr := { p.rdr with rd := p.rdr.rd.setPlaybackRate v } } rs ts

end TVP
