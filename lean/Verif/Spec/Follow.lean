import Verif.Spec.Late

/-!
# Where the sound is
-/

namespace TVP.Spec

/-- Where playing forwards has got to: from frame `x` on, an update whose blocks can all be allocated plays 128 instants at the
speed set last, nothing else moves the sound. -/
def heardTo (nch : Nat) : ℚ → ℚ → List Turn → ℚ
  | _, x, [] => x
  | r, x, .update al :: ts => if ∀ c < nch, al c = true then heardTo nch r (x + 128 * r) ts else heardTo nch r x ts
  | r, x, .poll :: ts => heardTo nch r x ts
  | _, x, .speed v :: ts => heardTo nch v x ts

/-- The time at which sample `i` of a sound of 44100 samples per second is heard, in milliseconds. -/
def timeOf (i : ℚ) : ℚ := i * 1000 / 44100

end TVP.Spec
