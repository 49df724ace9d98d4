import Verif.Model.Several
import Verif.Spec.Late

/-!
# What several players should do
-/

namespace TVP.Spec

/-- Players with the whole file in memory, whose events are run like those of file players. -/
def memKind (fp : Fp) (fuel : Nat) : Kind ArrayReader where
  update a al := a.update fp fuel al
  serve a e := .ok (match e with | .reload => a | .close => a.close)
  speed a v := { a with rd := a.rd.setPlaybackRate v }

/-- The number of `runPolled` calls. -/
def calls : List Move → Nat
  | [] => 0
  | .run :: ms => calls ms + 1
  | _ :: ms => calls ms

/-- The number of updates of player `e`. -/
def updatesOf (e : Nat) : List Move → Nat
  | [] => 0
  | .update i _ :: ms => updatesOf e ms + if i = e then 1 else 0
  | _ :: ms => updatesOf e ms

/-- `runPolled` is called often enough for player `e`: wherever there are fewer than `k` calls in a row, there are at most `n` updates of `e`. -/
def Often (k n e : Nat) (ms : List Move) : Prop := ∀ s, s <:+: ms → calls s < k → updatesOf e s ≤ n

/-- Only the players below `k` are used, and the speeds set for player `e` are from 0 to `R e`. -/
def Among (k : Nat) (R : Nat → Int) (ms : List Move) : Prop :=
  (∀ e al, Move.update e al ∈ ms → e < k) ∧ ∀ e v, Move.speed e v ∈ ms → e < k ∧ 0 ≤ v ∧ v ≤ R e

/-- What was transmitted, released and raised by the updates of player `e`. -/
def effectsOf (e : Nat) : List Did → List Fx
  | [] => []
  | .updated i fx :: xs => if i = e then fx :: effectsOf e xs else effectsOf e xs
  | _ :: xs => effectsOf e xs

/-- What player `e` saw: its own updates and changes of speed, and its event being run. -/
def seenBy (e : Nat) : List Move → List Did → List Turn
  | .update i al :: ms, _ :: xs => if i = e then .update al :: seenBy e ms xs else seenBy e ms xs
  | .speed i v :: ms, _ :: xs => if i = e then .speed v :: seenBy e ms xs else seenBy e ms xs
  | .run :: ms, .ran out _ :: xs => if out.map Prod.fst = some e then .poll :: seenBy e ms xs else seenBy e ms xs
  | _, _ => []

end TVP.Spec
