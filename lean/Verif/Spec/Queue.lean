import Verif.Model.Events

/-!
# First come, first served (independent of the linked list)
-/

namespace TVP.Spec

/-- Those waiting, in order; the last status each was triggered with; and whether it was cancelled since. -/
structure Line where
  q : List Nat := []
  status : Nat → Ev := fun _ => .reload
  dead : Nat → Bool := fun _ => false

/-- Who is waiting keeps their place; others go to the end. -/
def Line.trigger (l : Line) (x : Nat × Ev) : Line :=
  { q := if x.1 ∈ l.q then l.q else l.q ++ [x.1]
    status := fun i => if i = x.1 then x.2 else l.status i
    dead := fun i => if i = x.1 then false else l.dead i }

def Line.triggers (l : Line) (xs : List (Nat × Ev)) : Line := xs.foldl Line.trigger l

/-- Cancelling does not give up the place. -/
def Line.clear (l : Line) (e : Nat) : Line := { l with dead := fun i => if i = e then true else l.dead i }

/-- Serve the first, with triggers arriving meanwhile. -/
def Line.poll (l : Line) (w : Windows) : Option (Nat × Ev) × Line :=
  match l.q with
  | [] => (none, l.triggers w.early)
  | e :: _ =>
    let l := l.triggers w.early
    let l := { l with q := l.q.tail }
    let l := l.triggers w.mid
    (some (e, l.status e), l.triggers w.late)

/-- What happens to events, in time order. -/
inductive Act
  | trigger (e : Nat)
  | run (e : Nat)

/-- The triggers that found their event idle (not triggered since it last ran), given who is waiting at the start. -/
def idleTriggers (waiting : List Nat) : List Act → List Nat
  | [] => []
  | .trigger e :: as => if e ∈ waiting then idleTriggers waiting as else e :: idleTriggers (e :: waiting) as
  | .run e :: as => idleTriggers (waiting.filter (· ≠ e)) as

def runsOf : List Act → List Nat
  | [] => []
  | .trigger _ :: as => runsOf as
  | .run e :: as => e :: runsOf as

/-- Who is waiting in the end: triggered after it last ran. -/
def waitingAfter (waiting : List Nat) : List Act → List Nat
  | [] => waiting
  | .trigger e :: as => waitingAfter (if e ∈ waiting then waiting else e :: waiting) as
  | .run e :: as => waitingAfter (waiting.filter (· ≠ e)) as

end TVP.Spec
