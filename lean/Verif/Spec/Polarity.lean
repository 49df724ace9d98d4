import Verif.Spec.Anything

/-!
# A sound and its inverse
-/

namespace TVP.Spec

/-- Two samples cancel when added. -/
def Cancel (v w : Int) : Prop := v + w = 0

/-- Two samples cancel when added, or they are the two ends of the 16-bit range, which are not opposites. -/
def CancelOrClip (v w : Int) : Prop := v + w = 0 ∨ v = 32767 ∧ w = -32768 ∨ v = -32768 ∧ w = 32767

/-- Two updates do the same, with blocks whose samples are related by `q`, sample for sample. -/
def Mirrored (q : Int → Int → Prop) (fx fx' : Fx) : Prop :=
  fx.allocated = fx'.allocated ∧ fx.released = fx'.released ∧ fx.event = fx'.event ∧
    List.Forall₂ (fun t t' : List Int × Nat => t.2 = t'.2 ∧ List.Forall₂ q t.1 t'.1) fx.transmitted fx'.transmitted

/-- Two readers are alike, with opposite samples remembered for interpolation. -/
def Opposite (r r' : Rd) : Prop :=
  r' = { r with pts := r'.pts } ∧ ∀ c, (r'.pts c).n = (r.pts c).n ∧ (r'.pts c).y0 = -(r.pts c).y0 ∧ (r'.pts c).y1 = -(r.pts c).y1 ∧ (r'.pts c).y2 = -(r.pts c).y2 ∧ (r'.pts c).y3 = -(r.pts c).y3

/-- Each sample of one sound is the opposite of the sample of the other one at the same place. -/
def Inverse (xs ys : List Int) : Prop := List.Forall₂ Cancel xs ys

/-- Rounding treats both signs alike: to the nearest, not up or down. -/
def RoundsEvenly (fp : Fp) : Prop := (∀ x, fp.d.rnd (-x) = -fp.d.rnd x) ∧ ∀ x, fp.f.rnd (-x) = -fp.f.rnd x

end TVP.Spec
