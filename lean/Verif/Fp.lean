import Mathlib.Data.Rat.Floor
import Mathlib.Order.Monotone.Basic
import Mathlib.Tactic.Linarith
import Mathlib.Tactic.NormNum
import Mathlib.Tactic.Positivity
import Verif.Base

/-!
# Floating point

A `float`/`double` value is a rational number.  Every arithmetic operation of the C++ is modelled as
the exact rational operation followed by a rounding function.  The rounding function is a parameter:
all that is assumed of it is what IEEE-754 guarantees of every rounding mode, that it is monotone and
that it leaves representable numbers alone.  `Verif/FpIEEE.lean` constructs round-to-nearest-even as an
instance.  Not modelled: NaN, infinities (an operation that would create one faults instead, where it
can occur), overflow at the top of the exponent range, negative zero (the code only compares).
-/

namespace TVP

/-- `x` is a number with a `p`-bit significand and least exponent `emin` (no upper exponent bound). -/
def IsFloat (p : Nat) (emin : Int) (x : ℚ) : Prop :=
  ∃ m e : Int, |m| < 2 ^ p ∧ emin ≤ e ∧ x = m * (2 : ℚ) ^ e

/-- A rounding function onto numbers with `p`-bit significand and least exponent `emin`. -/
structure Rounding (p : Nat) (emin : Int) where
  rnd : ℚ → ℚ
  mono : Monotone rnd
  exact : ∀ x, IsFloat p emin x → rnd x = x

/-- IEEE-754 binary64 (`double`). -/
abbrev Fp64 := Rounding 53 (-1074)
/-- IEEE-754 binary32 (`float`). -/
abbrev Fp32 := Rounding 24 (-149)

/-- Both floating-point types of the machine. -/
structure Fp where
  d : Fp64
  f : Fp32

/-- C conversion from a floating-point number to an integer type: drop the fraction. -/
def trunc (q : ℚ) : Int := if 0 ≤ q then ⌊q⌋ else -⌊-q⌋

/-- `static_cast<int>(double)`; undefined when the truncated value does not fit. -/
def castI32 (q : ℚ) : M Int := if InI32 (trunc q) then .ok (trunc q) else .error .badCast
/-- `(int16_t) double`; undefined when the truncated value does not fit. -/
def castI16 (q : ℚ) : M Int := if InI16 (trunc q) then .ok (trunc q) else .error .badCast
/-- `(uint32_t) double`; undefined when the truncated value does not fit. -/
def castU32 (q : ℚ) : M Int := if InU32 (trunc q) then .ok (trunc q) else .error .badCast

/-- Exact arithmetic is one admissible rounding (used for non-vacuity and for exact-arithmetic claims). -/
def Rounding.ideal (p : Nat) (emin : Int) : Rounding p emin where
  rnd := id
  mono := monotone_id
  exact := fun _ _ => rfl

def Fp.ideal : Fp := ⟨Rounding.ideal _ _, Rounding.ideal _ _⟩

end TVP
