import Verif.Model.Player

/-!
# `AudioEventResponder` (src/AudioEventResponder.h, src/AudioEventResponder.cpp)

Its base class `EventResponder` is part of the Teensy core and is not in the repository.  What is assumed of it is
stated at the definitions (`clear`, `detach`, `MaskOp.attach`).

Every list operation runs with interrupts disabled and is one step here.
-/

namespace TVP

/-! ## The list of polled events -/

/-- The fields of one responder that matter for polling (src/AudioEventResponder.h:37-38 and, inherited, `_triggered`,
`_status`, `_type`).  `_function` is always `event_response`. -/
structure Node where
  aprev : Option Nat := none
  anext : Option Nat := none
  triggered : Bool := false
  polled : Bool := true
  /-- `_type` is `EventTypeDetached` -/
  detached : Bool := false
  status : Ev := .reload
  deriving DecidableEq, Repr

/-- All responders, by number, and `pollList` (src/AudioEventResponder.h:40-43). -/
structure Evs where
  node : Nat → Node := fun _ => {}
  first : Option Nat := none
  last : Option Nat := none

def Evs.set (s : Evs) (e : Nat) (n : Node) : Evs := { s with node := fun i => if i = e then n else s.node i }

/-- `addToList` (src/AudioEventResponder.cpp:34-50). -/
def Evs.addToList (s : Evs) (e : Nat) : M Evs :=
  match s.first with
  | none =>
    .ok { (s.set e { s.node e with aprev := none, anext := none }) with first := some e, last := some e }
  | some _ =>
    match s.last with
    | none => .error .nullDeref
    | some l =>
      let s := s.set e { s.node e with aprev := some l }
      let s := s.set l { s.node l with anext := some e }
      let s := s.set e { s.node e with anext := none }
      .ok { s with last := some e }

/-- `removeFromList` (src/AudioEventResponder.cpp:53-68).  The last statement is guarded by the base class's `_prev`,
which is null for a responder that has never been attached to `yield`, so that it is never executed. -/
def Evs.removeFromList (s : Evs) (e : Nat) : Evs :=
  let s := if s.first = some e then { s with first := (s.node e).anext } else s
  let s := if s.last = some e then { s with last := (s.node e).aprev } else s
  match (s.node e).anext with
  | none => s
  | some x => s.set x { s.node x with aprev := (s.node e).aprev }

/-- The inner part of `triggerEvent` (src/AudioEventResponder.h:122-126). -/
def Evs.enqueue (s : Evs) (e : Nat) : M Evs :=
  if (s.node e).triggered then .ok s
  else do
    let s ← s.addToList e
    return s.set e { s.node e with triggered := true }

/-- The end of `triggerEvent` (src/AudioEventResponder.h:132-134). -/
def Evs.settle (s : Evs) (e : Nat) : Evs := if (s.node e).detached then s.set e { s.node e with triggered := false } else s

/-- `triggerEvent` (src/AudioEventResponder.h:115-135).  For a detached responder the base class does nothing but set
`_triggered`, which is taken back. -/
def Evs.trigger (s : Evs) (e : Nat) (st : Ev) : M Evs := do
  let s := s.set e { s.node e with status := st }
  if (s.node e).polled then return (← s.enqueue e).settle e
  else return s.settle e

/-- `EventResponder::clearEvent`, called by `stop()` (src/playresmp.h:157).  The base class unlinks responders attached to
`yield` or to an interrupt only; for one of type `EventTypeImmediate`, which `attachPolled` sets, it just resets `_triggered`. -/
def Evs.clear (s : Evs) (e : Nat) : Evs := s.set e { s.node e with triggered := false }

/-- `detach` (src/AudioEventResponder.h:100-112).  The base class's `detach` does nothing to a responder of type
`EventTypeDetached`. -/
def Evs.detach (s : Evs) (e : Nat) : Evs :=
  if (s.node e).polled then
    let s := s.set e { s.node e with polled := false, detached := true }
    if (s.node e).triggered then s.removeFromList e else s
  else s

/-- `attachPolled` (src/AudioEventResponder.h:88-97). -/
def Evs.attachPolled (s : Evs) (e : Nat) : Evs :=
  let s := s.detach e
  s.set e { s.node e with polled := true, detached := false }

/-- Several triggers, as they arrive by interrupt. -/
def Evs.triggers : Evs → List (Nat × Ev) → M Evs
  | s, [] => .ok s
  | s, x :: xs => do (← s.trigger x.1 x.2).triggers xs

/-- The interrupts during one `runPolled`: after `first` was read, after the event was taken off the list, and while its function runs. -/
structure Windows where
  early : List (Nat × Ev) := []
  mid : List (Nat × Ev) := []
  late : List (Nat × Ev) := []

/-- `runPolled` and `_runPolled` (src/AudioEventResponder.h:140-174): the responder run with the status its function sees, the
returned number, and the new state. -/
def Evs.runPolled (s : Evs) (w : Windows) : M (Option (Nat × Ev) × Int × Evs) := do
  match s.first with
  | none =>
    let s ← s.triggers w.early
    return (none, if s.first = none then -1 else 1, s)
  | some e =>
    let s ← s.triggers w.early
    let s := s.removeFromList e
    let s := s.set e { s.node e with triggered := false }
    let s ← s.triggers w.mid
    let st := (s.node e).status
    let s ← s.triggers w.late
    return (some (e, st), if s.first = none then 0 else 1, s)

/-! ## Masking the response -/

/-- `yield_active_check_flags` (Teensy core), `active_flags_copy`, `disableCount`, `forceResponse`
(src/AudioEventResponder.h:34-36).  The bit `YIELD_CHECK_EVENT_RESPONDER` is `ev`; the other bits are `rest`. -/
structure Mask where
  ev : Bool := false
  rest : Nat → Bool := fun _ => false
  copyEv : Bool := false
  copyRest : Nat → Bool := fun _ => false
  count : Int := 0
  force : Bool := false

/-- `disableResponse` (src/AudioEventResponder.h:48-57). -/
def Mask.disable (s : Mask) : Mask :=
  let s := if s.count = 0 then
    let s := { s with copyEv := s.ev, copyRest := s.rest }
    if !s.force then { s with ev := false } else s
    else s
  { s with count := s.count + 1 }

/-- `enableResponse` (src/AudioEventResponder.h:60-69). -/
def Mask.enable (s : Mask) : Mask :=
  let s := { s with count := s.count - 1 }
  if s.count ≤ 0 then
    let s := if !s.force then { s with ev := s.ev || s.copyEv, rest := fun i => s.rest i || s.copyRest i } else s
    { s with count := 0 }
  else s

/-- `updateResponse` (src/AudioEventResponder.h:73-79). -/
def Mask.update (s : Mask) : Mask :=
  let s := { s with copyEv := s.copyEv || s.ev }
  if s.count > 0 && !s.force then { s with ev := false } else s

/-- `EventResponder::attach` of the Teensy core sets the flag. -/
def Mask.attach (s : Mask) : Mask := { s with ev := true }

end TVP
