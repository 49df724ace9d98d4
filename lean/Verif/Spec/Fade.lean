import Mathlib.Data.Rat.Floor
import Mathlib.Tactic.NormNum

/-!
# What a cross-faded loop should sound like (independent of the reader)

A loop over the frames from `A` to `E`, cross-faded over `D` frames, played at unit rate from frame `s`, upwards (`up`) or downwards;
`pp`: to and fro.
-/

namespace TVP.Spec

/-- What is heard at a moment: one frame, or, `t` frames into a fade, the frame `i` fading out and the frame `j` fading in. -/
inductive Heads
  | one (i : Int)
  | two (t i j : Int)
  deriving DecidableEq

/-- The frame of the head fading in, `t` frames after it started: from the beginning of the loop upwards or from its end downwards. -/
def inHead (A E : Int) (up : Bool) (t : Int) : Int := if up then A + t else E - t

/-- The frame of the head fading out, on its last `D` frames before the end of the loop it is moving to: the end opposite to where the
head fading in started, or, to and fro, the same. -/
def outHead (A E D : Int) (pp up : Bool) (t : Int) : Int := if up != pp then E - D + t else A + D - t

/-- What is heard at the `k`-th frame.  First `s` and the frames after it, until the last `D` frames before the end of the loop; from then on
laps of `E - A - D` frames, whose first `D + 1` are the fade.  To and fro, every lap changes direction. -/
def headsAt (pp : Bool) (A E D s : Int) (up : Bool) (k : Int) : Heads :=
  let first := if up then E - D - s else s - (A + D)
  if k < first then .one (if up then s + k else s - k)
  else
    let lap := (k - first) / (E - A - D)
    let t := (k - first) % (E - A - D)
    let dir := if pp then (up == decide (lap % 2 = 1)) else up
    if t ≤ D then .two t (outHead A E D pp dir t) (inHead A E dir t) else .one (inHead A E dir t)

/-- The value heard, given the samples of a channel: during a fade the mean of the two, weighted linearly with time, up to truncation; exactly
the old one at its beginning and the new one at its end. -/
def Sounds (D : Int) (x : Int → Int) : Heads → Int → Prop
  | .one i, v => v = x i
  | .two t i j, v => (t = 0 → v = x i) ∧ (t = D → v = x j) ∧ |(v : ℚ) - ((1 - t / D) * x i + t / D * x j)| < 1 + 2 ^ (-29 : ℤ)

end TVP.Spec
