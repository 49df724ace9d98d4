import Verif.Model.File

/-!
# `WaveHeaderParser` (src/waveheaderparser.h)
-/

namespace TVP

/-- `struct wav_header` (src/waveheaderparser.h:13-28) with its default member initialisers. -/
structure WavHeader where
  riff : List Nat := [0, 0, 0, 0]
  headerChunkSize : Int := 0
  wave : List Nat := [0, 0, 0, 0]
  fmt : List Nat := [0, 0, 0, 0]
  fmtChunkSize : Int := 0
  audioFormat : Int := 0
  numChannels : Int := 0
  sampleRate : Int := 0
  byteRate : Int := 0
  sampleAlignment : Int := 0
  bitDepth : Int := 0
  deriving DecidableEq, Repr

/-- `struct wav_data_header` (src/waveheaderparser.h:30-34). -/
structure WavDataHeader where
  dataHeader : List Nat := [0, 0, 0, 0]
  dataBytes : Int := 0
  deriving DecidableEq, Repr

/-- Four bytes of `m` from `o`. -/
def bytes4 (m : List Nat) (o : Nat) : M (List Nat) := do
  let a ← byteAt m o
  let b ← byteAt m (o + 1)
  let c ← byteAt m (o + 2)
  let d ← byteAt m (o + 3)
  return [a, b, c, d]

/-- Little-endian 32-bit value at `o`. -/
def word32 (m : List Nat) (o : Nat) : M Nat := do
  let a ← byteAt m o
  let b ← byteAt m (o + 1)
  let c ← byteAt m (o + 2)
  let d ← byteAt m (o + 3)
  return le32 a b c d

/-- Little-endian 16-bit value at `o`. -/
def word16 (m : List Nat) (o : Nat) : M Nat := do
  let a ← byteAt m o
  let b ← byteAt m (o + 1)
  return le16 a b

/-- `m[o] == t0 && m[o+1] == t1 && ...`, reading no further than the first mismatch. -/
def tagIs (m : List Nat) : Nat → List Nat → M Bool
  | _, [] => .ok true
  | o, t :: ts => do
    let b ← byteAt m o
    if b = t then tagIs m (o + 1) ts else return false

/-- ASCII tags. -/
def tagRIFF : List Nat := [82, 73, 70, 70]
def tagWAVE : List Nat := [87, 65, 86, 69]
def tagFmt  : List Nat := [102, 109, 116, 32]
def tagData : List Nat := [100, 97, 116, 97]
def tagLIST : List Nat := [76, 73, 83, 84]

/-- `WaveHeaderParser::readWaveHeaderFromBuffer` (src/waveheaderparser.h:84-137).  The header is passed
by reference, so the fields assigned before a failing check keep their new values.
`Serial.printf` is modelled only where its arguments make it undefined: lines 86 (`%s` of a buffer with
no terminator in reach) and 100, 107 (`%s` of a `char`). -/
def readWaveHeaderFromBuffer (m : List Nat) (h : WavHeader) : M (Bool × WavHeader) := do
  if !(← tagIs m 0 tagRIFF) then
    if 0 ∈ m then return (false, h) else throw .badFormat
  let h := { h with riff := ← bytes4 m 0 }
  let h := { h with headerChunkSize := i32 (← word32 m 4) }
  let wave ← bytes4 m 8
  let h := { h with wave := wave }
  if wave ≠ tagWAVE then throw .badFormat
  let fmt ← bytes4 m 12
  let h := { h with fmt := fmt }
  if fmt ≠ tagFmt then throw .badFormat
  let fsz ← word32 m 16
  let h := { h with fmtChunkSize := i32 fsz }
  if fsz ≠ 16 then return (false, h)
  let h := { h with audioFormat := i16 (← word16 m 20) }
  let h := { h with numChannels := i16 (← word16 m 22) }
  let h := { h with sampleRate := i32 (← word32 m 24) }
  let h := { h with byteRate := i32 (← word32 m 28) }
  let h := { h with sampleAlignment := i16 (← word16 m 32) }
  let h := { h with bitDepth := i16 (← word16 m 34) }
  return (true, h)

/-- `WaveHeaderParser::readInfoTags` (src/waveheaderparser.h:139-159).  `none` is the `false` result;
`some n` is `true` with `infoTagsSize = n`. -/
def readInfoTags (m : List Nat) (o : Nat) : M (Option Int) := do
  if ← tagIs m o tagLIST then
    return some (u32 ((← word32 m (o + 4)) + 8))
  if ← tagIs m o tagData then
    return some 0
  return none

/-- `WaveHeaderParser::readDataHeader` (src/waveheaderparser.h:161-174). -/
def readDataHeader (m : List Nat) (o : Nat) : M (Bool × WavDataHeader) := do
  let tag ← bytes4 m o
  if tag ≠ tagData then return (false, { dataHeader := tag })
  return (true, { dataHeader := tag, dataBytes := ← word32 m (o + 4) })

/-- `WaveHeaderParser::readWaveHeader(filename, header, data_header)` (src/waveheaderparser.h:38-72)
together with the overload it calls (lines 74-82).  `file = none`: `SD.open` failed.  The stack buffers
are fully overwritten before they are parsed (short reads return `false`), so no uninitialised byte is
read here.  On line 62 the function returns without `wavFile.close()`: not observable in this model. -/
def readWaveHeader (file : Option Dev) : M (Bool × WavHeader × WavDataHeader) := do
  match file with
  | none => return (false, {}, {})
  | some f =>
    let (b36, f) := f.read 36
    if b36.length ≠ 36 then return (false, {}, {})
    let (ok, h) ← readWaveHeaderFromBuffer b36 {}
    if !ok then return (false, h, {})
    let f := f.seek 36
    let (b8, f) := f.read 8
    if b8.length ≠ 8 then return (false, h, {})
    match ← readInfoTags b8 0 with
    | none => return (false, h, {})
    | some tags =>
      let f := f.seek (u32 (36 + tags)).toNat
      let (d8, _) := f.read 8
      if d8.length ≠ 8 then return (false, h, {})
      let (ok, dh) ← readDataHeader d8 0
      return (ok, h, dh)

end TVP
