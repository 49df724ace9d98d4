import Verif.Spec.Wav

/-!
# Which WAV files are playable (independent of the player)
-/

namespace TVP.Spec

/-- Where the data chunk's tag is: right after the header, or after a LIST chunk. -/
def DataAt (m : List Nat) (off : Nat) : Prop :=
  ((slice m 36 4 = [100, 97, 116, 97] ∧ off = 36) ∨
    (slice m 36 4 = [76, 73, 83, 84] ∧ off = 44 + leVal (slice m 40 4))) ∧
  slice m off 4 = [100, 97, 116, 97] ∧ off + 8 ≤ m.length

/-- A file that should play: good header, 16 bit, data chunk found, at least one byte pair behind it. -/
def Playable (m : List Nat) : Prop :=
  36 ≤ m.length ∧ GoodHeader m ∧ leVal (slice m 34 2) = 16 ∧
    ∃ off, DataAt m off ∧ 2 * ((off + 8) / 2) < m.length

/-- The LIST chunk, if there is one, ends inside the file; or the file system moves the cursor past
the end. -/
def ListInside (m : List Nat) (past : Bool) : Prop :=
  slice m 36 4 = [76, 73, 83, 84] →
    44 ≤ m.length ∧ (44 + leVal (slice m 40 4) ≤ m.length ∨
      (past = true ∧ 44 + leVal (slice m 40 4) < 2 ^ 32))

end TVP.Spec
