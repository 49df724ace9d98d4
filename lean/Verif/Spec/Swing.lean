import Verif.Spec.Path

/-!
# To and fro at any speed
-/

namespace TVP.Spec

/-- A position and whether it is moving up. -/
structure Swing where
  y : ℚ
  up : Bool

/-- Moving on at the speed `v`. -/
def Swing.move (v : ℚ) (w : Swing) : Swing := ⟨if w.up then w.y + v else w.y - v, w.up⟩

/-- Turning round: a position at or behind the end `E` of the loop goes down from frame `E - back`, one before its start `A` goes up
from there, keeping only the fraction. -/
def Swing.turn (A E back : Int) (w : Swing) : Swing :=
  if w.up then (if E ≤ ⌊w.y⌋ then ⟨(E - back : Int) + Int.fract w.y, false⟩ else w)
  else (if ⌈w.y⌉ < A then ⟨A + (w.y - ⌈w.y⌉), true⟩ else w)

/-- The frame heard: the one last reached, no higher than where it turned down, no lower than where it turned up. -/
def Swing.frame (A E back : Int) (w : Swing) : Int := if w.up then max ⌊w.y⌋ A else min ⌈w.y⌉ (E - back)

/-- From `w` at the speed `v`, to and fro. -/
def swingAt (A E back : Int) (w : Swing) (v : ℚ) : Nat → Swing
  | 0 => w
  | t + 1 => ((swingAt A E back w v t).move v).turn A E back

def swingPath (A E back : Int) (w : Swing) (v : ℚ) (t : Nat) : Option Nat := some ((swingAt A E back w v t).frame A E back).toNat

end TVP.Spec
