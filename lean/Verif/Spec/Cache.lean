import Verif.Spec.Wav

/-!
# What a streamed file should deliver (independent of the cache)
-/

namespace TVP.Spec

/-- Sample `i` of a file: bytes `2 i` and `2 i + 1`, little endian, two's complement. -/
def fileSample (m : List Nat) (i : Nat) : Int :=
  let v : Nat := leVal (slice m (2 * i) 2)
  if v < 32768 then v else (v : Int) - 65536

/-- Sample `i` lies in the file. -/
def InFile (m : List Nat) (i : Int) : Prop := 0 ≤ i ∧ 2 * i + 2 ≤ m.length

/-- All samples of a file. -/
def samplesOf (m : List Nat) : List Int := (List.range (m.length / 2)).map (fileSample m)

/-- Playing forwards in blocks of `B` samples: round after round, the first block touched is the one touched first before
or one of the next `mm`, and no sample of the round is more than `mm` blocks further on.  `k` is the first block touched in
the round before (or the block playback starts in). -/
def GoesForward (B mm : Int) : Int → List (List Int) → Prop
  | _, [] => True
  | k, is :: rest => ∃ k', k ≤ k' ∧ k' ≤ k + mm ∧ (∃ i ∈ is, i / B = k') ∧ (∀ i ∈ is, k' ≤ i / B ∧ i / B ≤ k' + mm) ∧ GoesForward B mm k' rest

/-- The same for playing backwards: `k` is the last block touched in the round before (or the block playback starts in). -/
def GoesBackward (B mm : Int) : Int → List (List Int) → Prop
  | _, [] => True
  | k, is :: rest => ∃ k', k' ≤ k ∧ k - mm ≤ k' ∧ (∃ i ∈ is, i / B = k') ∧ (∀ i ∈ is, i / B ≤ k' ∧ k' - mm ≤ i / B) ∧ GoesBackward B mm k' rest

end TVP.Spec
