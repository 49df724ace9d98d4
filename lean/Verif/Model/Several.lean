import Verif.Model.Events

/-!
# Several polled players at once

A program has any number of players; each is a reader (src/playresmp.h) and one responder (src/AudioEventResponder.h).  The audio library calls `update()` of the players one after
the other, the program calls `runPolled()`, which runs the event that has waited longest.  Neither interrupts the other here; what an update between the steps of a
reload does is in `Verif.Model.Interrupt`, and what updates do to the list during `runPolled` in `Verif.Model.Events`.
-/

namespace TVP

/-- What makes a player: its `update()` up to `triggerEvent` (src/playresmp.h:166-218), `event_response` (src/playresmp.h:23-42) and `setPlaybackRate`. -/
structure Kind (σ : Type) where
  update : σ → (Nat → Bool) → M (Fx × σ)
  serve : σ → Ev → M σ
  speed : σ → ℚ → σ

/-- File players. -/
def fileKind (fp : Fp) (g : Geo) (nullOk : Bool) (fuel : Nat) : Kind FileReader where
  update a al := a.update fp g nullOk fuel al
  serve a e := a.service fp g fuel e
  speed a v := { a with rd := a.rd.setPlaybackRate v }

/-- The players' readers and the list of events (src/AudioEventResponder.h:40-43). -/
structure Desk (σ : Type) where
  rdr : Nat → σ
  evs : Evs := {}

def Desk.set {σ : Type} (d : Desk σ) (e : Nat) (x : σ) : Desk σ := { d with rdr := fun i => if i = e then x else d.rdr i }

/-- `update()` of player `e` by the audio library, `runPolled()` by the program, `setPlaybackRate` of player `e` by the program. -/
inductive Move
  | update (e : Nat) (alloc : Nat → Bool)
  | run
  | speed (e : Nat) (v : ℚ)

/-- What can be seen of it: the effects of an update, the event that was run and the result of `runPolled`. -/
inductive Did
  | updated (e : Nat) (fx : Fx)
  | ran (out : Option (Nat × Ev)) (result : Int)
  | set (e : Nat)

/-- `triggerEvent` at the end of `update()` (src/playresmp.h:202-210). -/
def Evs.raise (s : Evs) (e : Nat) : Option Ev → M Evs
  | none => .ok s
  | some st => s.trigger e st

def Desk.step {σ : Type} (K : Nat → Kind σ) (d : Desk σ) : Move → M (Did × Desk σ)
  | .update e al => do
    let (fx, x) ← (K e).update (d.rdr e) al
    let evs ← d.evs.raise e fx.event
    return (.updated e fx, { d.set e x with evs := evs })
  | .run => do
    let (out, res, evs) ← d.evs.runPolled {}
    match out with
    | none => return (.ran out res, { d with evs := evs })
    | some (e, st) => do
      let x ← (K e).serve (d.rdr e) st
      return (.ran out res, { d.set e x with evs := evs })
  | .speed e v => return (.set e, d.set e ((K e).speed (d.rdr e) v))

def Desk.steps {σ : Type} (K : Nat → Kind σ) : Desk σ → List Move → M (List Did × Desk σ)
  | d, [] => .ok ([], d)
  | d, m :: ms => do
    let (x, d) ← d.step K m
    let (xs, d) ← d.steps K ms
    return (x :: xs, d)

end TVP
