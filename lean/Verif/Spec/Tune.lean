import Mathlib.Data.Rat.Floor

/-!
# Keeping a speed

What it means that a player keeps the speed it was given, when the positions need not be exact.
-/

namespace TVP.Spec

/-- Forwards from `x` through `F` frames at the speed `r`: at instant `t` the frame heard is the one at `x + t r`, but for a displacement of
at most `ε` for each instant passed, and the end comes when that position reaches the end, to the same accuracy; no frame comes after a later one,
and nothing after the end. -/
structure InTune (path : Nat → Option Nat) (x r ε : ℚ) (F : Nat) : Prop where
  frame : ∀ t i, path t = some i → i < F ∧ (i : ℚ) ≤ x + t * r + t * ε ∧ x + t * r - t * ε < i + 1
  over : ∀ t, path t = none → (F : ℚ) ≤ x + t * r + t * ε
  onward : ∀ t i j, path t = some i → path (t + 1) = some j → i ≤ j
  stays : ∀ t, path t = none → path (t + 1) = none

/-- Backwards from `x` at the speed `ρ` down to frame 0; the frame heard at a position between two is the upper one. -/
structure InTuneBack (path : Nat → Option Nat) (x ρ ε : ℚ) : Prop where
  frame : ∀ t i, path t = some i → (i : ℚ) < x - t * ρ + t * ε + 1 ∧ x - t * ρ - t * ε ≤ i
  over : ∀ t, path t = none → x - t * ρ - t * ε ≤ -1
  onward : ∀ t i j, path t = some i → path (t + 1) = some j → j ≤ i
  stays : ∀ t, path t = none → path (t + 1) = none

/-- Forwards from `x` at the speed `r`, round and round from frame `A` to before frame `E`: after some passes `n` the frame heard is the one
due on a tape on which the loop is written out, to the same accuracy; for ever. -/
def InTuneLoop (path : Nat → Option Nat) (x r ε : ℚ) (A E : Int) : Prop :=
  ∀ t, ∃ i n : Nat, path t = some i ∧ (i : Int) < E ∧ (n = 0 ∨ A ≤ i) ∧
    (i : ℚ) + n * (E - A) ≤ x + t * r + t * ε ∧ x + t * r - t * ε < i + n * (E - A) + 1

/-- Backwards from `x` at the speed `ρ`, round and round from frame `Z` down to frame `A`. -/
def InTuneLoopBack (path : Nat → Option Nat) (x ρ ε : ℚ) (A Z : Int) : Prop :=
  ∀ t, ∃ i n : Nat, path t = some i ∧ A ≤ i ∧ (n = 0 ∨ (i : Int) ≤ Z) ∧
    (i : ℚ) < x - t * ρ + t * ε + n * (Z + 1 - A) + 1 ∧ x - t * ρ - t * ε + n * (Z + 1 - A) ≤ i

end TVP.Spec
