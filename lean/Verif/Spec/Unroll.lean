import Verif.Spec.Smooth

/-!
# The order in which the frames of a loop are met
-/

namespace TVP.Spec

/-- The frames met forwards, one after another, when the loop from frame `A` up to but excluding frame `E` is repeated:
… `E - 2`, `E - 1`, `A`, `A + 1`, …, `E - 1`, `A`, … -/
def unroll (A E i : Int) : Int := if i < E then i else A + (i - E) % (E - A)

/-- The frames met backwards when the frames from `A` up to and including `T` are repeated; frame `-i` at index `i` at first:
… `A + 1`, `A`, `T`, `T - 1`, …, `A`, `T`, … -/
def unrollBack (A T i : Int) : Int := if i ≤ -A then -i else T - (i + A - 1) % (T - A + 1)

end TVP.Spec
