import Verif.Spec.Wav

/-!
# RIFF files as the format defines them (independent of the library)

A RIFF file is a list of chunks; a chunk is a tag of four characters, the length of its body and the body, and a chunk whose body has
an odd length is followed by a byte of padding that does not count.
-/

namespace TVP.Spec

structure Chunk where
  tag : List Nat
  body : List Nat

/-- The bytes of a chunk. -/
def Chunk.bytes (c : Chunk) : List Nat :=
  c.tag ++ le32B c.body.length ++ c.body ++ (if c.body.length % 2 = 1 then [0] else [])

structure Chunk.Valid (c : Chunk) : Prop where
  tag : c.tag.length = 4
  tagBytes : IsBytes c.tag
  bodyBytes : IsBytes c.body

/-- The 16 bytes that every format chunk starts with. -/
def fmtBody (f : Fields) : List Nat :=
  le16B f.format ++ le16B f.channels ++ le32B f.rate ++ le32B f.byteRate ++ le16B f.align ++ le16B f.depth

/-- A WAV file: a format chunk (with an extension, usually empty), some chunks, the data chunk, more chunks.  ASCII: RIFF, WAVE,
"fmt ", "data". -/
def riffWav (f : Fields) (ext : List Nat) (before : List Chunk) (audio : List Nat) (after : List Chunk) : List Nat :=
  [82, 73, 70, 70] ++ le32B f.riffSize ++ [87, 65, 86, 69] ++ Chunk.bytes ⟨[102, 109, 116, 32], fmtBody f ++ ext⟩ ++
    before.flatMap Chunk.bytes ++ Chunk.bytes ⟨[100, 97, 116, 97], audio⟩ ++ after.flatMap Chunk.bytes

/-- A well-formed 16-bit file with something to play. -/
structure WellFormed (f : Fields) (ext : List Nat) (before : List Chunk) (audio : List Nat) (after : List Chunk) : Prop where
  fields : f.Valid
  extBytes : IsBytes ext
  depth : f.depth = 16
  channels : 1 ≤ f.channels
  beforeValid : ∀ c ∈ before, c.Valid ∧ c.tag ≠ [100, 97, 116, 97]
  audioBytes : IsBytes audio
  sound : audio ≠ []
  afterValid : ∀ c ∈ after, c.Valid
  small : (riffWav f ext before audio after).length < 2 ^ 31

/-- The chunks of the file that the library expects: a plain format chunk, then the data chunk, or one LIST chunk of even length and the
data chunk. -/
def Expected (ext : List Nat) (before : List Chunk) : Prop :=
  ext = [] ∧ (before = [] ∨ ∃ body, before = [⟨[76, 73, 83, 84], body⟩] ∧ body.length % 2 = 0)

end TVP.Spec
