import Verif.Spec.Interp
import Verif.Spec.Cut

/-!
# What interpolated playback should sound like
-/

namespace TVP.Spec

/-- Sample `i` of channel `ch` of material of `nch` channels that starts at byte `start`. -/
def channelOf (m : List Nat) (start nch ch : Nat) (i : Int) : Int := dataSample m start (i.toNat * nch + ch)

/-- The straight line through the samples `w`, at position `y`. -/
def straight (w : Int → Int) (y : ℚ) : ℚ := (1 - (y - ⌊y⌋)) * w ⌊y⌋ + (y - ⌊y⌋) * w (⌊y⌋ + 1)

/-- The cubic through the samples `w` at the two frames up to and the two frames behind position `y`, at `y`. -/
def smooth (w : Int → Int) (y : ℚ) : ℚ := cubic (w (⌊y⌋ - 1)) (w ⌊y⌋) (w (⌊y⌋ + 1)) (w (⌊y⌋ + 2)) (1 + (y - ⌊y⌋))

/-- `out` is material `w` of `F` frames played at rate `r` from position `x` with cubic interpolation, two frames behind:
silence until four frames have been used, then within 2 of the saturated cubic. -/
def CubicSound (w : Nat → Int → Int) (nch : Nat) (F : Int) (x r : ℚ) (out : Nat → Nat → Int) : Prop :=
  ∀ t ch : Nat, ch < nch → ⌊x + t * r⌋ < F →
    (x + t * r < ⌊x - r⌋ + 4 → out t ch = 0) ∧
    (⌊x - r⌋ + 4 ≤ x + t * r → |(out t ch : ℚ) - clampQ (smooth (w ch) (x + t * r - 2))| < 2)

/-- The same with linear interpolation, one frame behind: within one (and a rounding error) of the straight line and no louder
than the two samples it lies between, as soon as two frames have been used; before that the first frame, or exactly on it
`held`. -/
def LinearSound (w : Nat → Int → Int) (held : Nat → Int) (nch : Nat) (F : Int) (x r : ℚ) (out : Nat → Nat → Int) : Prop :=
  ∀ t ch : Nat, ch < nch → ⌊x + t * r⌋ < F →
    (⌊x - r⌋ + 2 ≤ x + t * r → |(out t ch : ℚ) - straight (w ch) (x + t * r - 1)| < 1 + 2 ^ (-30 : Int) ∧
      |out t ch| ≤ max |w ch (⌊x + t * r⌋ - 1)| |w ch ⌊x + t * r⌋|) ∧
    (x + t * r < ⌊x - r⌋ + 2 → x + t * r ≠ ⌊x + t * r⌋ → out t ch = w ch ⌊x + t * r⌋) ∧
    (x + t * r < ⌊x - r⌋ + 2 → x + t * r = ⌊x + t * r⌋ → out t ch = held ch)

end TVP.Spec
