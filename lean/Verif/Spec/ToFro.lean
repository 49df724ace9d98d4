import Verif.Spec.Rounds

/-!
# A program that plays loops to and fro as well
-/

namespace TVP.Spec

/-- Within the limits, with loops of either kind, of as many frames as there are channels or more; once there is a loop there always is one.  The speeds set are forwards. -/
def Use.ToFro (l : Rounds) (g : Geo) : Use → Prop
  | .call (.set (.loopType t)) => t ≠ .none
  | .call (.set (.loopStart x)) => 0 ≤ x ∧ x + l.channels ≤ l.mid + 1
  | u => u.Round l g

/-- Before a file is played, the speed is set again if there have been updates, since they may have turned it round.  `ready`: there have been none. -/
def SpeedFirst : (ready : Bool) → List Use → Prop
  | _, [] => True
  | b, .raw _ _ _ :: us => b = true ∧ SpeedFirst true us
  | b, .wav _ _ _ :: us => b = true ∧ SpeedFirst true us
  | _, .call (.update _) :: us => SpeedFirst false us
  | _, .call (.set (.speed _)) :: us => SpeedFirst true us
  | b, .call _ :: us => SpeedFirst b us

end TVP.Spec
