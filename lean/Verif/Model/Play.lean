import Verif.Model.Reader
import Verif.Model.Wav

/-!
# Concrete readers: starting and closing playback

`ResamplingArrayReader`, and the file readers (`ResamplingSdReader`, `ResamplingLfsReader`,
`ResamplingSerialFlashReader`, which differ only in buffer geometry, in `seek`, and in whether a missing
source is checked).
-/

namespace TVP

/-! ## Sources -/

/-- `ResamplingArrayReader::getSourceBufferValue` (src/ResamplingArrayReader.h:22-24); the state is the
memory the pointer points to. -/
def arraySrc : Src (Option (List Int)) where
  get s i :=
    match s with
    | none => .error .nullDeref
    | some xs =>
      if 0 ≤ i then
        match xs[i.toNat]? with
        | some v => .ok (v, some xs)
        | none => .error .outOfBounds
      else .error .outOfBounds

/-- `getSourceBufferValue` of the file readers. `nullOk = true`: SD (src/ResamplingSdReader.h:35-39
checks for a missing source); `false`: LittleFS and SerialFlash
(src/ResamplingSerialFlashReader.h:35-37). -/
def fileSrc (g : Geo) (nullOk : Bool) : Src (Option Cache) where
  get s i :=
    match s with
    | none => if nullOk then .ok (0, none) else .error .nullDeref
    | some c => let (v, c) := c.get g i; .ok (v, some c)

/-- The 16-bit little-endian samples contained in a byte sequence. -/
def toSamples : List Nat → List Int
  | a :: b :: rest => i16 (le16 a b) :: toSamples rest
  | _ => []

/-! ## Array reader -/

/-- Array reader: `ResamplingReader` fields and `_sourceBuffer`. -/
structure ArrayReader where
  rd : Rd := {}
  src : Option (List Int) := none

/-- `playRaw(array, length, numChannels)` (src/ResamplingReader.h:41-56). -/
def ArrayReader.playRaw (a : ArrayReader) (data : List Int) (length numChannels : Int) : Bool × ArrayReader :=
  let r := a.rd.stop
  let r := { r with header := 0, fileSize := i32 (u32 length * 2), loopStart := 0,
                    loopFinish := i32 length, fileSamples := i32 length }
  let r := (r.setNumChannels numChannels).reset
  (true, { rd := { r with playing := true }, src := some data })

/-- `playRaw(array, numChannels)` (src/ResamplingReader.h:58-60): passes `false` as the length. -/
def ArrayReader.playRaw' (a : ArrayReader) (data : List Int) (numChannels : Int) : Bool × ArrayReader :=
  a.playRaw data 0 numChannels

/-- `playWav(array, length)` (src/ResamplingReader.h:62-64): passes `true` as the channel count; overload
resolution selects `playRaw(array, numChannels)`. -/
def ArrayReader.playWavLen (a : ArrayReader) (image : List Nat) (_length : Int) : Bool × ArrayReader :=
  a.playRaw' (toSamples image) 1

/-- `playWav(array)` (src/ResamplingReader.h:66-93). -/
def ArrayReader.playWav (a : ArrayReader) (image : List Nat) : M (Bool × ArrayReader) := do
  let (ok, hdr) ← readWaveHeaderFromBuffer image {}
  if !ok then return (false, a)
  match ← readInfoTags image 36 with
  | none => return (false, a)
  | some tags =>
    let off := (u32 (36 + tags)).toNat
    let (ok, dh) ← readDataHeader image off
    if !ok then return (false, a)
    if hdr.numChannels = 0 then throw .divByZero
    return a.playRaw (toSamples (image.drop (u32 (36 + tags + 8)).toNat))
      (dh.dataBytes / u32 hdr.numChannels / 2) hdr.numChannels

/-- `close` (src/ResamplingArrayReader.h:34-38). -/
def ArrayReader.close (a : ArrayReader) : ArrayReader := { a with rd := a.rd.stop }

/-- `triggerReload` of the array reader does nothing (src/ResamplingReader.h:796-797). -/
def ArrayReader.triggerReload (a : ArrayReader) : ArrayReader := a

/-- `play()` of the array reader (src/ResamplingReader.h:200-206). -/
def ArrayReader.play (a : ArrayReader) : ArrayReader := { a with rd := a.rd.play }

/-- `loop(n)` of the array reader (src/ResamplingReader.h:558-563). -/
def ArrayReader.loop (a : ArrayReader) (n : Int) : M ArrayReader := do
  return { a with rd := ← a.rd.loop n }

/-- `read` of the array reader. -/
def ArrayReader.read (fp : Fp) (fuel : Nat) (a : ArrayReader) (n : Nat) :
    M (List (List Int) × ArrayReader) := do
  let o ← a.rd.read fp arraySrc fuel a.src n
  return (o.frames, ⟨o.r, o.s⟩)

/-! ## File readers -/

/-- File reader: `ResamplingReader` fields and `_sourceBuffer`. -/
structure FileReader where
  rd : Rd := {}
  src : Option Cache := none

/-- `close` of the file readers (src/ResamplingSdReader.h:50-65, src/ResamplingSerialFlashReader.h:48-61). -/
def FileReader.close (a : FileReader) : FileReader := { rd := a.rd.stop, src := none }

/-- `setLoopType` of a file reader (src/ResamplingReader.h:565-570). -/
def FileReader.setLoopType (a : FileReader) (t : LoopType) : FileReader :=
  { rd := a.rd.setLoopType t, src := a.src.map (·.setLoopType t) }
/-- `setLoopStart` of a file reader (src/ResamplingReader.h:631-635). -/
def FileReader.setLoopStart (g : Geo) (a : FileReader) (l : Int) : FileReader :=
  let rd := a.rd.setLoopStart l
  { rd := rd, src := a.src.map (·.setLoopStart g (rd.s2s rd.loopStart)) }
/-- `setLoopFinish` of a file reader (src/ResamplingReader.h:637-642). -/
def FileReader.setLoopFinish (g : Geo) (a : FileReader) (l : Int) : FileReader :=
  let rd := a.rd.setLoopFinish l
  { rd := rd, src := a.src.map (·.setLoopFinish g (rd.s2s rd.loopFinish)) }

/-- `play()` of a file reader (src/ResamplingReader.h:200-206); the cache is not touched. -/
def FileReader.play (a : FileReader) : FileReader := { a with rd := a.rd.play }
/-- `loop(n)` of a file reader (src/ResamplingReader.h:558-563); the cache is not told. -/
def FileReader.loop (a : FileReader) (n : Int) : M FileReader := do
  return { a with rd := ← a.rd.loop n }

/-- The WAV part of `play(filename, ...)` (src/ResamplingReader.h:115-147).  `junk` is the initial
content of the stack buffer.  `none`: `return false`; `some (r, file)`: carry on. The reader state at the
point of return is returned in both cases. -/
def playParseWav (r : Rd) (f : Dev) (junk : List Nat) : M (Bool × Rd × Dev) := do
  let (got, f) := f.read 36
  let buffer := overlay got junk
  let (_, hdr) ← readWaveHeaderFromBuffer buffer {}
  if hdr.bitDepth ≠ 16 then return (false, r, f)
  let r := r.setNumChannels (u16 hdr.numChannels)
  let (got, f) := f.read 8
  let buffer := overlay got buffer
  match ← readInfoTags buffer 0 with
  | none => return (false, r, f)
  | some tags =>
    let f := f.seek (u32 (36 + tags)).toNat
    let (got, f) := f.read 8
    let buffer := overlay got buffer
    let (ok, dh) ← readDataHeader buffer 0
    if !ok then return (false, r, f)
    return (true, { r with header := u32 (44 + tags) / 2, fileSamples := dh.dataBytes / 2 }, f)

/-- The common tail of `play(filename, ...)` (src/ResamplingReader.h:151-179). -/
def playFinish (g : Geo) (r : Rd) (f : Dev) : M (Bool × FileReader) := do
  if u32 r.fileSize ≤ u32 (r.header * 2) then
    return (false, { rd := { r with playing := false }, src := none })
  if r.nch = 0 then throw .divByZero
  let r := { r with fileSamples := r.fileSamples.tdiv r.nch }
  let r := if r.loopType = .none then { r with loopStart := 0, loopFinish := r.fileSamples } else r
  let a : FileReader := { rd := r, src := some { dev := f } }
  let a := a.setLoopType r.loopType
  let a := a.setLoopStart g r.loopStart
  let a := a.setLoopFinish g r.loopFinish
  let rd := a.rd.reset
  let src := a.src.map fun c => c.preLoad g rd.pos1 (decide (rd.rate ≥ 0))
  return (true, { rd := { rd with playing := true }, src := src })

/-- `play(filename, isWave, numChannelsIfRaw)` (src/ResamplingReader.h:95-180).  `file = none`: the file
cannot be opened.  File name handling is not modelled. -/
def FileReader.playFile (g : Geo) (a : FileReader) (file : Option Dev) (junk : List Nat)
    (isWave : Bool) (nchRaw : Int) : M (Bool × FileReader) := do
  let a := a.close
  let r := if isWave then a.rd else a.rd.setNumChannels nchRaw
  match file with
  | none => return (false, { rd := r, src := none })
  | some f =>
    let r := { r with fileSize := i32 f.size }
    if isWave then
      let (ok, r, f) ← playParseWav r f junk
      if !ok then return (false, { rd := r, src := none })
      playFinish g r f
    else
      playFinish g { r with fileSamples := r.fileSize.tdiv 2 } f

/-- `playWav(filename)` (src/ResamplingReader.h:196-198). -/
def FileReader.playWav (g : Geo) (a : FileReader) (file : Option Dev) (junk : List Nat) :
    M (Bool × FileReader) := a.playFile g file junk true 0
/-- `playRaw(filename, numChannels)` (src/ResamplingReader.h:192-194). -/
def FileReader.playRaw (g : Geo) (a : FileReader) (file : Option Dev) (n : Int) :
    M (Bool × FileReader) := a.playFile g file [] false n

/-- `triggerReload` (src/ResamplingReader.h:190); the rate is converted to `float`. -/
def FileReader.triggerReload (fp : Fp) (g : Geo) (fuel : Nat) (a : FileReader) : M FileReader := do
  match a.src with
  | none => return a
  | some c => return { a with src := some (← c.triggerReload g fuel (fp.f.rnd a.rd.rate)) }

/-- `read` of a file reader. -/
def FileReader.read (fp : Fp) (g : Geo) (nullOk : Bool) (fuel : Nat) (a : FileReader) (n : Nat) :
    M (List (List Int) × FileReader) := do
  let o ← a.rd.read fp (fileSrc g nullOk) fuel a.src n
  return (o.frames, ⟨o.r, o.s⟩)

end TVP
