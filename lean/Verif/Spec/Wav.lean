import Mathlib.Data.Nat.Notation
import Verif.Model.Wav

/-!
# What a WAV image is (independent of the parser)
-/

namespace TVP.Spec

/-- Little-endian encodings. -/
def le16B (n : Nat) : List Nat := [n % 256, n / 256 % 256]
def le32B (n : Nat) : List Nat := [n % 256, n / 256 % 256, n / 65536 % 256, n / 16777216 % 256]

/-- Every element is a byte. -/
def IsBytes (m : List Nat) : Prop := ∀ b ∈ m, b < 256

/-- `n` bytes from offset `o`. -/
def slice (m : List Nat) (o n : Nat) : List Nat := (m.drop o).take n

/-- Value of a little-endian byte string. -/
def leVal : List Nat → Nat
  | [] => 0
  | b :: bs => b + 256 * leVal bs

/-- The fields of a RIFF/WAVE header with a 16-byte format chunk. -/
structure Fields where
  riffSize : Nat
  format : Nat
  channels : Nat
  rate : Nat
  byteRate : Nat
  align : Nat
  depth : Nat

structure Fields.Valid (f : Fields) : Prop where
  riffSize : f.riffSize < 2 ^ 32
  format : f.format < 2 ^ 16
  channels : f.channels < 2 ^ 16
  rate : f.rate < 2 ^ 32
  byteRate : f.byteRate < 2 ^ 32
  align : f.align < 2 ^ 16
  depth : f.depth < 2 ^ 16

/-- The canonical 36 bytes. ASCII: RIFF, WAVE, "fmt ". -/
def header (f : Fields) : List Nat :=
  [82, 73, 70, 70] ++ le32B f.riffSize ++ [87, 65, 86, 69] ++ [102, 109, 116, 32] ++ le32B 16
    ++ le16B f.format ++ le16B f.channels ++ le32B f.rate ++ le32B f.byteRate ++ le16B f.align
    ++ le16B f.depth

/-- An optional LIST chunk with the given body. -/
def listChunk : Option (List Nat) → List Nat
  | none => []
  | some body => [76, 73, 83, 84] ++ le32B body.length ++ body

/-- The data chunk's header. -/
def dataHead (n : Nat) : List Nat := [100, 97, 116, 97] ++ le32B n

/-- A WAV image: header, optional LIST, data chunk declaring `n` bytes, followed by `audio`. -/
def wav (f : Fields) (list : Option (List Nat)) (n : Nat) (audio : List Nat) : List Nat :=
  header f ++ listChunk list ++ dataHead n ++ audio

/-- The first 36 bytes are an acceptable header. -/
def GoodHeader (m : List Nat) : Prop :=
  slice m 0 4 = [82, 73, 70, 70] ∧ slice m 8 4 = [87, 65, 86, 69] ∧ slice m 12 4 = [102, 109, 116, 32]
    ∧ slice m 16 4 = [16, 0, 0, 0]

instance (m : List Nat) : Decidable (GoodHeader m) := by unfold GoodHeader; infer_instance

/-- The parsed structure carries exactly these fields. -/
structure Carries (h : WavHeader) (f : Fields) : Prop where
  riff : h.riff = [82, 73, 70, 70]
  wave : h.wave = [87, 65, 86, 69]
  fmt : h.fmt = [102, 109, 116, 32]
  fmtSize : h.fmtChunkSize = 16
  riffSize : u32 h.headerChunkSize = f.riffSize
  format : u16 h.audioFormat = f.format
  channels : u16 h.numChannels = f.channels
  rate : u32 h.sampleRate = f.rate
  byteRate : u32 h.byteRate = f.byteRate
  align : u16 h.sampleAlignment = f.align
  depth : u16 h.bitDepth = f.depth

end TVP.Spec
