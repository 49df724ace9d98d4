import Mathlib.Data.Rat.Floor
import Mathlib.Tactic.Ring

/-!
# Specification for the interpolation functions
-/

namespace TVP.Spec

/-- The Lagrange cubic through `(0,a) (1,b) (2,c) (3,d)`. -/
def cubic (a b c d : Int) (x : ℚ) : ℚ :=
  a * ((x - 1) * (x - 2) * (x - 3) / -6) + b * (x * (x - 2) * (x - 3) / 2)
    + c * (x * (x - 1) * (x - 3) / -2) + d * (x * (x - 1) * (x - 2) / 6)

/-- `cubic` does pass through its four nodes. -/
theorem cubic_nodes (a b c d : Int) :
    cubic a b c d 0 = a ∧ cubic a b c d 1 = b ∧ cubic a b c d 2 = c ∧ cubic a b c d 3 = d := by
  unfold cubic
  refine ⟨?_, ?_, ?_, ?_⟩ <;> ring

/-- Saturation of a real value to the 16-bit range. -/
def clampQ (q : ℚ) : ℚ := max (-32768) (min 32767 q)

/-- Nearest integer, halves away from zero (C `round`). -/
def IsRound (q : ℚ) (n : Int) : Prop :=
  |q - n| ≤ 1 / 2 ∧ (|q - n| = 1 / 2 → |q| < |(n : ℚ)|)

end TVP.Spec
