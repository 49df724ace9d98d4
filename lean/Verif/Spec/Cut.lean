import Verif.Spec.Path

/-!
# What is to be heard of a file that is shorter than its header says
-/

namespace TVP.Spec

/-- Instants of forward playback at rate `r` from `x`, up to frame `F`: what is heard is told instant by instant. -/
def instants (F : Int) (x r : ℚ) (t : Nat) : Option Nat := if ⌊x + t * r⌋ < F then some t else none

end TVP.Spec
