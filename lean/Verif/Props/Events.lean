import Verif.Lemmas.Events
import Verif.Props.Player

/-!
# Properties C53-C56, C63: events and their masking
-/

namespace TVP
open Spec

/-! ## The line of events -/

/-- What users and interrupts do with polled responders. -/
inductive EvOp
  | trigger (e : Nat) (st : Ev)
  | poll (w : Windows)
  /-- `stop()` of the player -/
  | clear (e : Nat)

/-- What was run at each poll. -/
def runEvs : Evs → List EvOp → M (List (Option (Nat × Ev)) × Evs)
  | s, [] => .ok ([], s)
  | s, .trigger e st :: os => do runEvs (← s.trigger e st) os
  | s, .clear e :: os => runEvs (s.clear e) os
  | s, .poll w :: os => do
    let (out, _, s) ← s.runPolled w
    let (outs, s) ← runEvs s os
    return (out :: outs, s)

/-- The same with a plain line. -/
def serve : Line → List EvOp → List (Option (Nat × Ev)) × Line
  | l, [] => ([], l)
  | l, .trigger e st :: os => serve (l.trigger (e, st)) os
  | l, .clear e :: os => serve (l.clear e) os
  | l, .poll w :: os =>
    let (out, l) := l.poll w
    let (outs, l) := serve l os
    (out :: outs, l)

/-- Every trigger of the sequence is harmless at its time. -/
def AllHarmless : Line → List (Nat × Ev) → Prop
  | _, [] => True
  | l, x :: xs => Line.Harmless l x.1 ∧ AllHarmless (l.trigger x) xs

/-- No event that is cancelled while waiting is triggered again before it was served, unless it is the last of the line. -/
def Careful : Line → List EvOp → Prop
  | _, [] => True
  | l, .trigger e st :: os => Line.Harmless l e ∧ Careful (l.trigger (e, st)) os
  | l, .clear e :: os => Careful (l.clear e) os
  | l, .poll w :: os =>
    AllHarmless l w.early ∧ (l.q ≠ [] → AllHarmless { l.triggers w.early with q := (l.triggers w.early).q.tail } w.mid ∧
      AllHarmless (({ l.triggers w.early with q := (l.triggers w.early).q.tail } : Line).triggers w.mid) w.late) ∧ Careful (l.poll w).2 os

theorem Rep.triggers {s : Evs} {l : Line} (h : Rep s l) : ∀ {xs : List (Nat × Ev)}, AllHarmless l xs → ∃ s', s.triggers xs = .ok s' ∧ Rep s' (l.triggers xs) := by
  intro xs
  induction xs generalizing s l with
  | nil => intro _; exact ⟨s, rfl, h⟩
  | cons x xs ih =>
    intro hx
    obtain ⟨s1, h1, h2⟩ := h.trigger hx.1
    obtain ⟨s2, h3, h4⟩ := ih h2 hx.2
    exact ⟨s2, by unfold Evs.triggers; rw [h1]; exact h3, h4⟩

theorem triggers_head {e : Nat} : ∀ (xs : List (Nat × Ev)) {l : Line} {t : List Nat}, l.q = e :: t → ∃ t', (l.triggers xs).q = e :: (t ++ t')
  | [], l, t, h => ⟨[], by simpa [Line.triggers] using h⟩
  | x :: xs, l, t, h => by
    have h1 : ∃ t1, (l.trigger x).q = e :: (t ++ t1) := by
      unfold Line.trigger
      by_cases hm : x.1 ∈ l.q
      · simp only [hm, if_true]; exact ⟨[], by simpa using h⟩
      · simp only [hm, if_false]; exact ⟨[x.1], by rw [h]; rfl⟩
    obtain ⟨t1, h1⟩ := h1
    obtain ⟨t2, h2⟩ := triggers_head xs h1
    exact ⟨t1 ++ t2, by unfold Line.triggers at *; rw [List.foldl_cons, h2]; simp⟩

/-- One poll. -/
theorem Rep.poll {s : Evs} {l : Line} (h : Rep s l) (w : Windows) (he : AllHarmless l w.early)
    (hw : l.q ≠ [] → AllHarmless { l.triggers w.early with q := (l.triggers w.early).q.tail } w.mid ∧
      AllHarmless (({ l.triggers w.early with q := (l.triggers w.early).q.tail } : Line).triggers w.mid) w.late) :
    ∃ s', s.runPolled w = .ok ((l.poll w).1, (if (l.poll w).2.q = [] then (if (l.poll w).1 = none then -1 else 0) else 1), s') ∧ Rep s' (l.poll w).2 := by
  obtain ⟨s1, h1, h2⟩ := h.triggers he
  unfold Evs.runPolled Line.poll
  have hnil : ∀ {s : Evs} {l : Line}, Rep s l → (s.first = none ↔ l.q = []) := fun hr => by rw [hr.first]; exact List.head?_eq_none_iff
  cases hq : l.q with
  | nil =>
    rw [h.first, hq]
    simp only [List.head?_nil, h1, ok_bind, pure_eq_ok]
    refine ⟨s1, ?_, h2⟩
    simp only [hnil h2, if_true]
  | cons e t =>
    rw [h.first, hq]
    simp only [List.head?_cons, h1, ok_bind, pure_eq_ok]
    obtain ⟨t', ht'⟩ := triggers_head w.early hq
    obtain ⟨hw1, hw2⟩ := hw (by simp [hq])
    obtain ⟨s3, h3, h4⟩ := (h2.pop ht').triggers hw1
    obtain ⟨s4, h5, h6⟩ := h4.triggers hw2
    rw [h3]
    simp only [ok_bind, h5]
    refine ⟨s4, ?_, h6⟩
    simp only [hnil h6, h4.status]
    simp

/-- The result number of every poll, with what was run and whether anything waits at its end. -/
theorem Rep.runs {s : Evs} {l : Line} (h : Rep s l) : ∀ {os : List EvOp}, Careful l os → ∃ s', runEvs s os = .ok ((serve l os).1, s') ∧ Rep s' (serve l os).2 := by
  intro os
  induction os generalizing s l with
  | nil => intro _; exact ⟨s, rfl, h⟩
  | cons o os ih =>
    cases o with
    | trigger e st =>
      intro hc
      obtain ⟨s1, h1, h2⟩ := h.trigger (x := (e, st)) hc.1
      obtain ⟨s2, h3, h4⟩ := ih h2 hc.2
      exact ⟨s2, by unfold runEvs; rw [h1]; exact h3, h4⟩
    | clear e =>
      intro hc
      exact ih (h.clear e) hc
    | poll w =>
      intro hc
      obtain ⟨s1, h1, h2⟩ := h.poll w hc.1 hc.2.1
      obtain ⟨s2, h3, h4⟩ := ih h2 hc.2.2
      refine ⟨s2, ?_, h4⟩
      unfold runEvs serve
      simp only [h1, ok_bind, h3]
      rfl

/-! ### Only triggers and polls -/

/-- Nothing is cancelled. -/
def NoClear (os : List EvOp) : Prop := ∀ e, EvOp.clear e ∉ os

def Alive (l : Line) : Prop := ∀ e, l.dead e = false

theorem Alive.trigger {l : Line} (h : Alive l) (x : Nat × Ev) : Alive (l.trigger x) := by
  intro e; unfold Line.trigger; simp only; split <;> simp [h e]

theorem Alive.triggers {l : Line} (h : Alive l) (xs : List (Nat × Ev)) : Alive (l.triggers xs) := by
  unfold Line.triggers
  induction xs generalizing l with
  | nil => exact h
  | cons x xs ih => exact ih (h.trigger x)

theorem Alive.harmless {l : Line} (h : Alive l) : ∀ xs, AllHarmless l xs
  | [] => trivial
  | x :: xs => ⟨fun _ hd => (by rw [h] at hd; cases hd), (h.trigger x).harmless xs⟩

theorem Alive.tail {l : Line} (h : Alive l) : Alive { l with q := l.q.tail } := h

theorem Alive.poll {l : Line} (h : Alive l) (w : Windows) : Alive (l.poll w).2 := by
  unfold Line.poll
  split
  · exact h.triggers _
  · exact (((h.triggers w.early).tail).triggers w.mid).triggers w.late

theorem Alive.careful {l : Line} (h : Alive l) : ∀ {os : List EvOp}, NoClear os → Careful l os := by
  intro os
  induction os generalizing l with
  | nil => intro _; trivial
  | cons o os ih =>
    intro hn
    have hn' : NoClear os := fun e he => hn e (List.mem_cons_of_mem _ he)
    cases o with
    | trigger e st => exact ⟨fun _ hd => (by rw [h] at hd; cases hd), ih (h.trigger _) hn'⟩
    | clear e => exact (hn e (by simp)).elim
    | poll w =>
      exact ⟨h.harmless _, fun _ => ⟨(Alive.tail (h.triggers _)).harmless _, ((Alive.tail (h.triggers _)).triggers _).harmless _⟩, ih (h.poll w) hn'⟩

/-- What happened in time order during the operations, given what the polls ran. -/
def actsOf : List EvOp → List (Option (Nat × Ev)) → List Act
  | [], _ => []
  | .trigger e _ :: os, outs => .trigger e :: actsOf os outs
  | .clear _ :: os, outs => actsOf os outs
  | .poll w :: os, none :: outs => w.early.map (fun x => Act.trigger x.1) ++ actsOf os outs
  | .poll w :: os, some (e, _) :: outs =>
    w.early.map (fun x => Act.trigger x.1) ++ .run e :: (w.mid ++ w.late).map (fun x => Act.trigger x.1) ++ actsOf os outs
  | .poll _ :: _, [] => []

/-- Queue semantics of what happens: triggers join at the end unless waiting, only the first is run. -/
inductive Steps : List Nat → List Act → List Nat → Prop
  | nil (q) : Steps q [] q
  | old {q as q' e} : e ∈ q → Steps q as q' → Steps q (.trigger e :: as) q'
  | new {q as q' e} : e ∉ q → Steps (q ++ [e]) as q' → Steps q (.trigger e :: as) q'
  | run {q as q' e} : e ∉ q → Steps q as q' → Steps (e :: q) (.run e :: as) q'

theorem Steps.append {q as q' bs q'' : List _} (h : Steps q as q') (h2 : Steps q' bs q'') : Steps q (as ++ bs) q'' := by
  induction h with
  | nil q => exact h2
  | old he _ ih => exact .old he (ih h2)
  | new he _ ih => exact .new he (ih h2)
  | run he _ ih => exact .run he (ih h2)

theorem Steps.fifo {q as q'} (h : Steps q as q') : ∀ {W : List Nat}, (∀ e, e ∈ W ↔ e ∈ q) →
    q ++ idleTriggers W as = runsOf as ++ q' ∧ ∀ e, e ∈ waitingAfter W as ↔ e ∈ q' := by
  induction h with
  | nil q => intro W hW; exact ⟨by simp [idleTriggers, runsOf], hW⟩
  | @old q as q' e he _ ih =>
    intro W hW
    unfold idleTriggers runsOf waitingAfter
    rw [if_pos ((hW e).2 he), if_pos ((hW e).2 he)]
    exact ih hW
  | @new q as q' e he _ ih =>
    intro W hW
    unfold idleTriggers runsOf waitingAfter
    have hn : e ∉ W := fun hh => he ((hW e).1 hh)
    rw [if_neg hn, if_neg hn]
    obtain ⟨h1, h2⟩ := ih (W := e :: W) (fun x => by simp [hW x, or_comm])
    exact ⟨by rw [← h1]; simp, h2⟩
  | @run q as q' e he _ ih =>
    intro W hW
    unfold idleTriggers runsOf waitingAfter
    obtain ⟨h1, h2⟩ := ih (W := W.filter (· ≠ e)) (fun x => by
      rw [List.mem_filter, hW x]
      constructor
      · rintro ⟨h1, h2⟩
        rcases List.mem_cons.1 h1 with rfl | h1
        · simp at h2
        · exact h1
      · intro hx
        exact ⟨List.mem_cons_of_mem _ hx, by simpa using fun hh : x = e => he (hh ▸ hx)⟩)
    exact ⟨by rw [List.cons_append, List.cons_append, h1], h2⟩

theorem steps_triggers : ∀ (xs : List (Nat × Ev)) {l : Line}, l.q.Nodup → Steps l.q (xs.map fun x => Act.trigger x.1) (l.triggers xs).q ∧ (l.triggers xs).q.Nodup
  | [], l, h => ⟨.nil _, h⟩
  | x :: xs, l, h => by
    unfold Line.triggers
    rw [List.foldl_cons, List.map_cons]
    by_cases hm : x.1 ∈ l.q
    · have e : (l.trigger x).q = l.q := by unfold Line.trigger; simp [hm]
      obtain ⟨h1, h2⟩ := steps_triggers xs (l := l.trigger x) (by rw [e]; exact h)
      refine ⟨.old hm ?_, h2⟩
      rw [e] at h1; exact h1
    · have e : (l.trigger x).q = l.q ++ [x.1] := by unfold Line.trigger; simp [hm]
      obtain ⟨h1, h2⟩ := steps_triggers xs (l := l.trigger x) (by
        rw [e]; exact List.Nodup.append h (by simp) (by simpa using fun h => hm h))
      refine ⟨.new hm ?_, h2⟩
      rw [e] at h1; exact h1

theorem steps_serve : ∀ (os : List EvOp) {l : Line}, l.q.Nodup → Steps l.q (actsOf os (serve l os).1) (serve l os).2.q
  | [], l, _ => .nil _
  | .trigger e st :: os, l, h => by
    obtain ⟨h1, h2⟩ := steps_triggers [(e, st)] h
    exact h1.append (steps_serve os h2)
  | .clear e :: os, l, h => steps_serve os (l := l.clear e) h
  | .poll w :: os, l, h => by
    unfold serve
    cases hq : l.q with
    | nil =>
      have hp : l.poll w = (none, l.triggers w.early) := by unfold Line.poll; rw [hq]
      rw [hp]
      simp only [actsOf]
      obtain ⟨h1, h2⟩ := steps_triggers w.early h
      rw [hq] at h1
      exact h1.append (steps_serve os h2)
    | cons e t =>
      obtain ⟨l1, hl1⟩ : ∃ l1 : Line, l1 = { l.triggers w.early with q := (l.triggers w.early).q.tail } := ⟨_, rfl⟩
      have hp : l.poll w = (some (e, (l1.triggers w.mid).status e), (l1.triggers w.mid).triggers w.late) := by
        unfold Line.poll; rw [hq, hl1]
      rw [hp]
      simp only [actsOf]
      obtain ⟨h1, h2⟩ := steps_triggers w.early h
      obtain ⟨t', ht⟩ := triggers_head w.early hq
      have hq1 : l1.q = t ++ t' := by rw [hl1]; simp only; rw [ht]; rfl
      rw [ht, hq] at h1
      rw [ht] at h2
      have hnd : l1.q.Nodup := by rw [hq1]; exact (List.nodup_cons.1 h2).2
      obtain ⟨h3, h4⟩ := steps_triggers w.mid hnd
      obtain ⟨h5, h6⟩ := steps_triggers w.late h4
      have hr := Steps.run (List.nodup_cons.1 h2).1 (by rw [← hq1]; exact (h3.append h5))
      have := (h1.append hr).append (steps_serve os h6)
      rw [← List.map_append] at this
      simpa using this

/-- **C54**.  Any sequence of triggers and polls over any number of polled players, triggers also arriving during polls: nothing
faults, and the events run so far followed by those still waiting are exactly the triggers that found their event idle (not
triggered since it last started to run), in order.  So each of those is run once, first come first served. -/
theorem C54_first_come_first_served (os : List EvOp) (hn : NoClear os) :
    ∃ outs s, runEvs {} os = .ok (outs, s) ∧ ∃ left : List Nat, idleTriggers [] (actsOf os outs) = runsOf (actsOf os outs) ++ left ∧
      (∀ e, e ∈ left ↔ e ∈ waitingAfter [] (actsOf os outs)) ∧ (left = [] ↔ s.first = none) := by
  obtain ⟨s, h1, h2⟩ := Rep.init.runs (Alive.careful (fun _ => rfl) hn)
  have h3 := steps_serve os (l := {}) List.nodup_nil
  obtain ⟨h4, h5⟩ := h3.fifo (W := []) (fun e => Iff.rfl)
  exact ⟨_, s, h1, (serve {} os).2.q, by simpa using h4, fun e => (h5 e).symm, by rw [h2.first]; exact List.head?_eq_none_iff.symm⟩

/-- **C54**, the status: the function of each event run sees the status of the latest trigger (the runs are those of a plain line,
`Spec.Line`, which stores the latest status). -/
theorem C54_latest_status (os : List EvOp) (hn : NoClear os) : ∃ s, runEvs {} os = .ok ((serve {} os).1, s) := by
  obtain ⟨s, h1, _⟩ := Rep.init.runs (Alive.careful (fun _ => rfl) hn)
  exact ⟨s, h1⟩

example : ∃ s, runEvs {} [.trigger 3 .reload, .trigger 1 .reload, .poll { mid := [(3, .close)], late := [(2, .reload)] }, .poll {}, .poll {}, .poll {}, .poll {}] =
    .ok ([some (3, .close), some (1, .reload), some (3, .close), some (2, .reload), none], s) := by
  obtain ⟨s, h⟩ := C54_latest_status [.trigger 3 .reload, .trigger 1 .reload, .poll { mid := [(3, .close)], late := [(2, .reload)] }, .poll {}, .poll {}, .poll {},
    .poll {}] (by intro e; simp)
  exact ⟨s, h⟩

/-! ### Cancelling -/

/-- **C55** (the part that holds).  As long as no event that was cancelled while waiting is triggered again before it was served
(unless it is the last in the line), cancelling does not affect other events at all: the polls run everything in
the order of the line.  Missing: the other case, see `C55_refuted`; `detach`, see `C55_refuted_detach`. -/
theorem C55_careful_partial (os : List EvOp) (hc : Careful {} os) : ∃ s, runEvs {} os = .ok ((serve {} os).1, s) ∧
    idleTriggers [] (actsOf os (serve {} os).1) = runsOf (actsOf os (serve {} os).1) ++ (serve {} os).2.q := by
  obtain ⟨s, h1, _⟩ := Rep.init.runs hc
  exact ⟨s, h1, by simpa using ((steps_serve os (l := {}) List.nodup_nil).fifo (W := []) (fun e => Iff.rfl)).1⟩

example : ∃ s, runEvs {} [.trigger 1 .reload, .trigger 2 .reload, .clear 1, .poll {}, .trigger 1 .close, .poll {}, .poll {}] =
    .ok ([some (1, .reload), some (2, .reload), some (1, .close)], s) := by
  obtain ⟨s, h, _⟩ := C55_careful_partial [.trigger 1 .reload, .trigger 2 .reload, .clear 1, .poll {}, .trigger 1 .close, .poll {}, .poll {}]
    (by simp [Careful, AllHarmless, Line.Harmless, Line.trigger, Line.clear, Line.poll, Line.triggers])
  exact ⟨s, h⟩

/-- Event `e` counts as triggered, but no other event leads to it. -/
structure Lost (s : Evs) (e : Nat) : Prop where
  trig : (s.node e).triggered = true
  polled : (s.node e).polled = true
  att : (s.node e).detached = false
  first : s.first ≠ some e
  next : ∀ x, x ≠ e → (s.node x).anext ≠ some e

theorem Lost.addToList {s s' : Evs} {e y : Nat} (h : Lost s e) (hy : y ≠ e) (hs : s.addToList y = .ok s') : Lost s' e := by
  obtain ⟨h1, h2, h3, h4, h5⟩ := h
  cases hf : s.first with
  | none =>
    rw [addToList_empty hf] at hs
    injection hs with hs
    subst hs
    refine ⟨by simpa [Evs.set, hy.symm] using h1, by simpa [Evs.set, hy.symm] using h2, by simpa [Evs.set, hy.symm] using h3, by simpa using hy, fun x hx => ?_⟩
    by_cases hxy : x = y
    · subst hxy; simp [Evs.set]
    · simpa [Evs.set, hxy] using h5 x hx
  | some a =>
    cases hl : s.last with
    | none => unfold Evs.addToList at hs; rw [hf, hl] at hs; cases hs
    | some z =>
      obtain ⟨s2, e1, e2, e3, e4, e5, e6, e7⟩ := addToList_cons (e := y) hf hl
      rw [hs] at e1
      injection e1 with e1
      subst e1
      refine ⟨by rw [(e7 e).1]; exact h1, by rw [(e7 e).2.2.1]; exact h2, by rw [(e7 e).2.2.2]; exact h3, by rw [e2, ← hf]; exact h4, fun x hx => ?_⟩
      by_cases hxy : x = y
      · subst hxy; rw [e4]; simp
      · by_cases hxz : x = z
        · subst hxz; rw [e5 hxy]; simpa using hy
        · rw [e6 x hxy hxz]; exact h5 x hx

theorem Lost.set {s : Evs} {e y : Nat} {n : Node} (h : Lost s e) (hn : n.anext = (s.node y).anext) (ht : y = e → n.triggered = true)
    (hp : n.polled = (s.node y).polled) (hd : n.detached = (s.node y).detached) : Lost (s.set y n) e := by
  obtain ⟨h1, h2, h3, h4, h5⟩ := h
  by_cases hy : y = e
  · subst hy
    exact ⟨by simpa [Evs.set] using ht rfl, by simpa [Evs.set, hp] using h2, by simpa [Evs.set, hd] using h3, h4, fun x hx => by simpa [Evs.set, hx] using h5 x hx⟩
  · refine ⟨by simpa [Evs.set, Ne.symm hy] using h1, by simpa [Evs.set, Ne.symm hy] using h2, by simpa [Evs.set, Ne.symm hy] using h3, h4, fun x hx => ?_⟩
    by_cases hxy : x = y
    · subst hxy; simpa [Evs.set, hn] using h5 x hx
    · simpa [Evs.set, hxy] using h5 x hx

theorem Lost.settle {s : Evs} {e y : Nat} (h : Lost s e) : Lost (s.settle y) e := by
  unfold Evs.settle
  split
  · rename_i hd
    exact h.set rfl (fun hy => by subst hy; rw [h.att] at hd; cases hd) rfl rfl
  · exact h

theorem Lost.trigger {s s' : Evs} {e y : Nat} {st : Ev} (h : Lost s e) (hs : s.trigger y st = .ok s') : Lost s' e := by
  unfold Evs.trigger at hs
  simp only at hs
  obtain ⟨s1, hs1⟩ : ∃ s1, s1 = s.set y { s.node y with status := st } := ⟨_, rfl⟩
  have h1 : Lost s1 e := by rw [hs1]; exact h.set rfl (fun hy => by subst hy; exact h.trig) rfl rfl
  rw [← hs1] at hs
  clear hs1
  by_cases hp : (s1.node y).polled = true
  · rw [if_pos hp] at hs
    obtain ⟨s2, h2, hs⟩ := bind_ok_iff.1 hs
    injection hs with hs
    subst hs
    refine Lost.settle ?_
    unfold Evs.enqueue at h2
    by_cases ht : (s1.node y).triggered = true
    · rw [if_pos ht] at h2; injection h2 with h2; rw [← h2]; exact h1
    · rw [if_neg ht] at h2
      obtain ⟨s3, h3, h2⟩ := bind_ok_iff.1 h2
      injection h2 with h2
      rw [← h2]
      exact (h1.addToList (fun hy => ht (by rw [hy]; exact h1.trig)) h3).set rfl (fun _ => rfl) rfl rfl
  · rw [if_neg hp] at hs
    injection hs with hs
    rw [← hs]
    exact h1.settle

theorem Lost.triggers {e : Nat} : ∀ {xs : List (Nat × Ev)} {s s' : Evs}, Lost s e → s.triggers xs = .ok s' → Lost s' e
  | [], s, s', h, hs => by injection hs with hs; rw [← hs]; exact h
  | x :: xs, s, s', h, hs => by
    unfold Evs.triggers at hs
    obtain ⟨s1, h1, hs⟩ := bind_ok_iff.1 hs
    exact (h.trigger h1).triggers hs

theorem Lost.remove {s : Evs} {e y : Nat} (h : Lost s e) (hy : y ≠ e) : Lost (s.removeFromList y) e := by
  unfold Evs.removeFromList
  obtain ⟨s1, hs1⟩ : ∃ s1, s1 = (if s.first = some y then { s with first := (s.node y).anext } else s) := ⟨_, rfl⟩
  rw [← hs1]
  have h1 : Lost s1 e := by
    rw [hs1]
    split
    · exact ⟨h.trig, h.polled, h.att, h.next y hy, h.next⟩
    · exact h
  clear hs1
  simp only
  obtain ⟨s2, hs2⟩ : ∃ s2, s2 = (if s1.last = some y then { s1 with last := (s1.node y).aprev } else s1) := ⟨_, rfl⟩
  rw [← hs2]
  have h2 : Lost s2 e := by
    rw [hs2]
    split
    · exact ⟨h1.trig, h1.polled, h1.att, h1.first, h1.next⟩
    · exact h1
  clear hs2
  split
  · exact h2
  · exact h2.set rfl (fun hx => by subst hx; exact h2.trig) rfl rfl

theorem Lost.poll {s s' : Evs} {e : Nat} {w : Windows} {out : Option (Nat × Ev)} {n : Int} (h : Lost s e) (hs : s.runPolled w = .ok (out, n, s')) :
    Lost s' e ∧ ∀ st, out ≠ some (e, st) := by
  unfold Evs.runPolled at hs
  cases hf : s.first with
  | none =>
    simp only [hf] at hs
    obtain ⟨s1, h1, hs⟩ := bind_ok_iff.1 hs
    cases hs
    exact ⟨h.triggers h1, fun _ => by simp⟩
  | some y =>
    simp only [hf] at hs
    have hy : y ≠ e := fun hh => h.first (by rw [hf, hh])
    obtain ⟨s1, h1, hs⟩ := bind_ok_iff.1 hs
    obtain ⟨s3, h3, hs⟩ := bind_ok_iff.1 hs
    obtain ⟨s4, h4, hs⟩ := bind_ok_iff.1 hs
    cases hs
    have hset : Lost ((s1.removeFromList y).set y { (s1.removeFromList y).node y with triggered := false }) e :=
      Lost.set ((h.triggers h1).remove hy) rfl (fun hh => (hy hh).elim) rfl rfl
    refine ⟨(hset.triggers h3).triggers h4, fun st hh => ?_⟩
    injection hh with hh
    injection hh with hh _
    exact hy hh

/-- An event that is lost stays so, whatever happens, until its own player is stopped. -/
theorem Lost.runs {e : Nat} : ∀ {os : List EvOp} {s s' : Evs} {outs : List (Option (Nat × Ev))}, Lost s e → EvOp.clear e ∉ os →
    runEvs s os = .ok (outs, s') → Lost s' e ∧ ∀ st, some (e, st) ∉ outs
  | [], s, s', outs, h, _, hs => by cases hs; exact ⟨h, by simp⟩
  | .trigger y st :: os, s, s', outs, h, hn, hs => by
    unfold runEvs at hs
    obtain ⟨s1, h1, hs⟩ := bind_ok_iff.1 hs
    exact (h.trigger h1).runs (fun hh => hn (List.mem_cons_of_mem _ hh)) hs
  | .clear y :: os, s, s', outs, h, hn, hs => by
    have hy : y ≠ e := fun hh => hn (by simp [hh])
    have hset : Lost (s.clear y) e := Lost.set h rfl (fun hh => (hy hh).elim) rfl rfl
    exact hset.runs (fun hh => hn (List.mem_cons_of_mem _ hh)) hs
  | .poll w :: os, s, s', outs, h, hn, hs => by
    unfold runEvs at hs
    obtain ⟨⟨out, n, s1⟩, h1, hs⟩ := bind_ok_iff.1 hs
    simp only at hs
    obtain ⟨⟨outs1, s2⟩, h2, hs⟩ := bind_ok_iff.1 hs
    cases hs
    obtain ⟨h3, h4⟩ := h.poll h1
    obtain ⟨h5, h6⟩ := h3.runs (fun hh => hn (List.mem_cons_of_mem _ hh)) h2
    refine ⟨h5, fun st hm => ?_⟩
    rcases List.mem_cons.1 hm with hm | hm
    · exact h4 st hm.symm
    · exact h6 st hm

/-- **C55**, negation (stopping).  Players 1 and 2 wait, 1 is stopped, and starts again, triggering its event.  Then player 2 is
never served again, however often it triggers its event and however often events are polled, until it is stopped itself. -/
theorem C55_refuted : ∃ s, runEvs {} [.trigger 1 .reload, .trigger 2 .reload, .clear 1, .trigger 1 .reload] = .ok ([], s) ∧
    ∀ os outs s', EvOp.clear 2 ∉ os → runEvs s os = .ok (outs, s') → ∀ st, some (2, st) ∉ outs := by
  refine ⟨_, rfl, fun os outs s' hn hs => (Lost.runs (e := 2) ⟨rfl, rfl, rfl, by decide, fun x hx => ?_⟩ hn hs).2⟩
  match x with
  | 0 => decide
  | 1 => decide
  | 2 => exact (hx rfl).elim
  | n + 3 => exact (by simp : (none : Option Nat) ≠ some 2)

/-- The polls that follow really happen: a poll that runs player 1, one that finds nothing although player 2 has triggered again. -/
example : (runEvs {} [.trigger 1 .reload, .trigger 2 .reload, .clear 1, .trigger 1 .reload, .poll {}, .trigger 2 .close, .poll {}, .trigger 3 .reload, .poll {}]).map (·.1) =
    .ok [some (1, .reload), none, some (3, .reload)] := rfl

/-- **C55**, negation (detaching).  Players 1 and 2 wait, 2 is detached; after 1 is served, the next player that triggers its event
follows a null pointer. -/
theorem C55_refuted_detach (st1 st2 st3 : Ev) : ∃ s1 s2 s3, Evs.trigger {} 1 st1 = .ok s1 ∧ s1.trigger 2 st2 = .ok s2 ∧
    (s2.detach 2).runPolled {} = .ok (some (1, st1), 1, s3) ∧ s3.trigger 3 st3 = .error .nullDeref :=
  ⟨_, _, _, rfl, rfl, rfl, rfl⟩

/-! ## What `runPolled` returns -/

/-- **C56**.  In every state, whatever interrupts: −1 exactly when nothing was run and nothing is pending, 1 exactly when
something is pending, 0 exactly when something was run and nothing is pending any more. -/
theorem C56_result (s s' : Evs) (w : Windows) (ran : Option (Nat × Ev)) (n : Int) (h : s.runPolled w = .ok (ran, n, s')) :
    (n = -1 ↔ s.first = none ∧ s'.first = none) ∧ (n = 1 ↔ s'.first ≠ none) ∧ (n = 0 ↔ s.first ≠ none ∧ s'.first = none) ∧
      (ran = none ↔ s.first = none) := by
  unfold Evs.runPolled at h
  cases hf : s.first with
  | none =>
    simp only [hf] at h
    obtain ⟨s1, h1, h⟩ := bind_ok_iff.1 h
    cases h
    by_cases h2 : s'.first = none <;> simp [h2]
  | some e =>
    simp only [hf] at h
    obtain ⟨s1, h1, h⟩ := bind_ok_iff.1 h
    obtain ⟨s3, h3, h⟩ := bind_ok_iff.1 h
    obtain ⟨s4, h4, h⟩ := bind_ok_iff.1 h
    cases h
    by_cases h2 : s'.first = none <;> simp [h2]

theorem serve_append : ∀ (os os' : List EvOp) (l : Line), serve l (os ++ os') = ((serve l os).1 ++ (serve (serve l os).2 os').1, (serve (serve l os).2 os').2)
  | [], _, _ => rfl
  | .trigger e st :: os, os', l => serve_append os os' _
  | .clear e :: os, os', l => serve_append os os' _
  | .poll w :: os, os', l => by
    simp only [List.cons_append, serve, serve_append os os' (l.poll w).2]

theorem NoClear.append {os os' : List EvOp} (h : NoClear os) (h' : NoClear os') : NoClear (os ++ os') := fun e he => by
  rcases List.mem_append.1 he with he | he
  · exact h e he
  · exact h' e he

/-- **C56** in terms of what has happened: after any triggers and polls, a poll never faults; it runs nothing exactly when every event
triggered has run since, and returns 1 exactly when some event triggered has not started to run since. -/
theorem C56_waiting (os : List EvOp) (hn : NoClear os) (w : Windows) (outs : List (Option (Nat × Ev))) (s : Evs) (h : runEvs {} os = .ok (outs, s)) :
    ∃ ran n s', s.runPolled w = .ok (ran, n, s') ∧ (ran = none ↔ waitingAfter [] (actsOf os outs) = []) ∧
      (n = 1 ↔ waitingAfter [] (actsOf (os ++ [.poll w]) (outs ++ [ran])) ≠ []) ∧ (n = -1 ↔ ran = none ∧ n ≠ 1) ∧ (n = 0 ↔ ran ≠ none ∧ n ≠ 1) := by
  obtain ⟨s1, h1, h2⟩ := Rep.init.runs (Alive.careful (fun _ => rfl) hn)
  rw [h] at h1
  injection h1 with h1
  injection h1 with h1 hs
  subst hs
  subst h1
  have hn2 : NoClear (os ++ [.poll w]) := hn.append (fun e he => by simp at he)
  have hcare := Alive.careful (l := {}) (fun _ => rfl) hn
  have halive : Alive (serve {} os).2 := by
    clear * - hn
    have : ∀ (os : List EvOp) (l : Line), NoClear os → Alive l → Alive (serve l os).2 := by
      intro os
      induction os with
      | nil => intro l _ h; exact h
      | cons o os ih =>
        intro l hn h
        have hn' : NoClear os := fun e he => hn e (List.mem_cons_of_mem _ he)
        cases o with
        | trigger e st => exact ih _ hn' (h.trigger _)
        | clear e => exact (hn e (by simp)).elim
        | poll w => exact ih _ hn' (h.poll w)
    exact this os {} hn (fun _ => rfl)
  obtain ⟨s', h3, h4⟩ := h2.poll w (halive.harmless _) (fun _ => ⟨(Alive.tail (halive.triggers _)).harmless _, ((Alive.tail (halive.triggers _)).triggers _).harmless _⟩)
  have hw1 := ((steps_serve os (l := {}) List.nodup_nil).fifo (W := []) (fun e => Iff.rfl)).2
  have hw2 := ((steps_serve (os ++ [.poll w]) (l := {}) List.nodup_nil).fifo (W := []) (fun e => Iff.rfl)).2
  rw [serve_append] at hw2
  have hser : serve (serve {} os).2 [.poll w] = ([((serve {} os).2.poll w).1], ((serve {} os).2.poll w).2) := rfl
  rw [hser] at hw2
  simp only at hw2
  have empt : ∀ {a b : List Nat}, (∀ e, e ∈ a ↔ e ∈ b) → (a = [] ↔ b = []) := fun hh => by
    rw [List.eq_nil_iff_forall_not_mem, List.eq_nil_iff_forall_not_mem]
    exact forall_congr' fun e => not_congr (hh e)
  refine ⟨_, _, s', h3, ?_, ?_, ?_, ?_⟩
  · rw [empt hw1]
    unfold Line.poll
    cases hq : (serve {} os).2.q <;> simp
  · rw [Ne, empt hw2]
    by_cases hq : ((serve {} os).2.poll w).2.q = []
    · simp only [hq, if_true, not_true]; split <;> simp
    · simp [hq]
  · by_cases hq : ((serve {} os).2.poll w).2.q = [] <;> by_cases hr : ((serve {} os).2.poll w).1 = none <;> simp [hq, hr]
  · by_cases hq : ((serve {} os).2.poll w).2.q = [] <;> by_cases hr : ((serve {} os).2.poll w).1 = none <;> simp [hq, hr]

example : ∃ s s', runEvs {} [.trigger 1 .reload, .trigger 2 .reload] = .ok ([], s) ∧ s.runPolled {} = .ok (some (1, .reload), 1, s') ∧
    ∃ s'', s'.runPolled {} = .ok (some (2, .reload), 0, s'') ∧ s''.runPolled {} = .ok (none, -1, s'') := ⟨_, _, rfl, rfl, _, rfl, rfl⟩

/-! ## Stopping and the player's own event -/

/-- In the list of polled events: an event that is first in line is run by the next poll with the status of its last trigger, even if its player
was stopped and attached again. -/
theorem C63_stale_event (s : Evs) (e : Nat) (h : s.first = some e) : ∃ n s', ((s.clear e).attachPolled e).runPolled {} = .ok (some (e, (s.node e).status), n, s') := by
  obtain ⟨s1, hs1⟩ : ∃ s1, s1 = (s.clear e).attachPolled e := ⟨_, rfl⟩
  have h1 : s1.first = some e ∧ (s1.node e).status = (s.node e).status := by
    rw [hs1]
    unfold Evs.attachPolled Evs.detach Evs.clear
    by_cases hp : (s.node e).polled = true <;> simp [Evs.set, hp, h]
  rw [← hs1]
  have h2 : ∀ y, ((s1.removeFromList e).node y).status = (s1.node y).status := by
    intro y
    unfold Evs.removeFromList
    by_cases c1 : s1.first = some e <;> by_cases c2 : s1.last = some e <;> simp only [c1, c2, if_true, if_false] <;>
      (split <;> simp only [Evs.set] <;> split <;> simp_all)
  unfold Evs.runPolled
  rw [← h1.2, ← h2]
  simp only [h1.1, Evs.triggers, ok_bind, pure_eq_ok]
  obtain ⟨t, ht⟩ : ∃ t, t = s1.removeFromList e := ⟨_, rfl⟩
  rw [← ht]
  exact ⟨_, _, by simp only [Evs.set, if_true]; rfl⟩

/-- **C63**, negation (polled players).  If the previous sound's close event is still pending when `playWav` starts a new sound, the next poll ends the new sound. -/
theorem C63_cut_off (fp : Fp) (g : Geo) (fuel : Nat) (p p' : FilePlayer) (file : Option Dev) (junk : List Nat) (hp : p.pending = some .close)
    (h : p.playWavPolled g file junk = .ok (true, p')) : p'.rdr.rd.playing = true ∧ ∃ p'', p'.runEvent fp g fuel = .ok p'' ∧ p''.rdr.rd.playing = false ∧ p''.rdr.src = none := by
  unfold FilePlayer.playWavPolled at h
  obtain ⟨⟨ok, r⟩, h1, h⟩ := bind_ok_iff.1 h
  cases h
  refine ⟨(playFile_true h1).1, ?_⟩
  unfold FilePlayer.runEvent
  simp only [hp]
  refine ⟨_, rfl, ?_⟩
  exact ⟨rfl, rfl⟩

/-- **C63** (the part that holds): a player attached to `yield` forgets its pending event when it is stopped or starts a new sound: the next event run,
unless triggered since, does nothing.  Missing: polled players (`C63_cut_off`). -/
theorem C63_yield_partial (fp : Fp) (g : Geo) (fuel : Nat) (p p' : FilePlayer) (file : Option Dev) (junk : List Nat) (n : Int) (b : Bool)
    (h : p' = p.stop ∨ p.playWav g file junk = .ok (b, p') ∨ p.playRaw g file n = .ok (b, p')) : p'.runEvent fp g fuel = .ok p' := by
  have hp : p'.pending = none := by
    rcases h with h | h | h
    · rw [h]; rfl
    · unfold FilePlayer.playWav at h
      obtain ⟨⟨ok, r⟩, h1, h⟩ := bind_ok_iff.1 h
      cases h; rfl
    · unfold FilePlayer.playRaw at h
      obtain ⟨⟨ok, r⟩, h1, h⟩ := bind_ok_iff.1 h
      cases h; rfl
  unfold FilePlayer.runEvent
  rw [hp]

/-- A player whose sound has just ended. -/
def exEnded : FilePlayer := { exEnd with pending := some .close }

/-- A WAV file of 4 samples. -/
def exNext : List Nat := header ⟨44, 1, 1, 44100, 88200, 2, 16⟩ ++ [100, 97, 116, 97, 8, 0, 0, 0, 1, 0, 2, 0, 3, 0, 4, 0]

/-- **C63**, concrete negation: the sound has ended, a new sound is started and is playing, and the next poll ends it at once. -/
theorem C63_refuted : ∃ p', exEnded.playWavPolled sdGeo (some ⟨exNext, 0, false⟩) (List.replicate 36 0) = .ok (true, p') ∧
    p'.rdr.rd.playing = true ∧ ∃ p'', p'.runEvent Fp.ideal sdGeo 2 = .ok p'' ∧ p''.rdr.rd.playing = false ∧ p''.rdr.src = none := by
  have h : ∃ p', exEnded.playWavPolled sdGeo (some ⟨exNext, 0, false⟩) (List.replicate 36 0) = .ok (true, p') := by
    have h : (exEnded.playWavPolled sdGeo (some ⟨exNext, 0, false⟩) (List.replicate 36 0)).map (·.1) = .ok true := by rfl
    revert h
    cases exEnded.playWavPolled sdGeo (some ⟨exNext, 0, false⟩) (List.replicate 36 0) with
    | error e => intro h; cases h
    | ok x => intro h; exact ⟨x.2, by injection h with h; rw [← h]⟩
  obtain ⟨p', h⟩ := h
  exact ⟨p', h, C63_cut_off _ _ _ _ _ _ _ rfl h⟩

/-! ## Masking -/

/-- What players do with the flag `yield` looks at. -/
inductive MaskOp
  | disable
  | enable
  /-- `attach` of the Teensy core -/
  | attach
  | update
  deriving DecidableEq

def Mask.step (s : Mask) : MaskOp → Mask
  | .disable => s.disable
  | .enable => s.enable
  | .attach => s.attach
  | .update => s.update

def Mask.steps (s : Mask) (os : List MaskOp) : Mask := os.foldl Mask.step s

/-- Depth of nesting. -/
def nesting (os : List MaskOp) : Int := (os.count .disable : Int) - os.count .enable

/-- Never more ends than beginnings. -/
def Nested (os : List MaskOp) : Prop := ∀ k, 0 ≤ nesting (os.take k)

/-- At depth `d`; everything attached so far (with what was there at first) is `e`; `f`: attached without `updateResponse` since. -/
def MaskInv (rest : Nat → Bool) (s : Mask) (d : Int) (e f : Bool) : Prop :=
  s.force = false ∧ s.count = d ∧ s.rest = rest ∧ (d = 0 → s.ev = e) ∧ (0 < d → s.ev = f ∧ (s.copyEv || f) = e ∧ s.copyRest = rest)

/-- Attached since the last `updateResponse` or outermost `disableResponse`. -/
def freshStep (d : Int) (f : Bool) : MaskOp → Bool
  | .disable => if d = 0 then false else f
  | .enable => f
  | .attach => true
  | .update => false

theorem MaskInv.step {rest : Nat → Bool} {s : Mask} {d : Int} {e f : Bool} (h : MaskInv rest s d e f) (o : MaskOp) (hd0 : 0 ≤ d)
    (hd : 0 ≤ d + nesting [o]) : MaskInv rest (s.step o) (d + nesting [o]) (e || decide (o = .attach)) (freshStep d f o) := by
  obtain ⟨h1, h2, h3, h4, h5⟩ := h
  cases o with
  | disable =>
    have hn : nesting [.disable] = 1 := rfl
    simp only [Mask.step, Mask.disable, hn, freshStep]
    by_cases hz : d = 0
    · subst hz
      simp [MaskInv, h1, h2, h3, h4 rfl]
    · obtain ⟨a, b, c⟩ := h5 (by omega)
      rw [if_neg (by omega), if_neg hz]
      refine ⟨h1, by simp [h2], h3, fun hh => by omega, fun _ => ⟨a, ?_, c⟩⟩
      simpa using b
  | enable =>
    have hn : nesting [.enable] = -1 := rfl
    rw [hn] at hd
    obtain ⟨a, b, c⟩ := h5 (by omega)
    simp only [Mask.step, Mask.enable, hn, freshStep]
    by_cases hz : d = 1
    · subst hz
      rw [if_pos (by omega)]
      simp only [h1, Bool.not_false, if_true]
      refine ⟨rfl, by simp, ?_, fun _ => ?_, fun hh => by omega⟩
      · funext i; simp [h3, c]
      · simp only [a]; rw [← b]; cases s.copyEv <;> cases f <;> rfl
    · rw [if_neg (by omega)]
      exact ⟨h1, by simp [h2]; omega, h3, fun hh => by omega, fun _ => ⟨a, by simpa using b, c⟩⟩
  | attach =>
    have hn : nesting [.attach] = 0 := rfl
    simp only [Mask.step, Mask.attach, hn, freshStep, Int.add_zero]
    exact ⟨h1, h2, h3, fun hh => by simp, fun hh => ⟨rfl, by simp, (h5 hh).2.2⟩⟩
  | update =>
    have hn : nesting [.update] = 0 := rfl
    simp only [Mask.step, Mask.update, hn, freshStep, Int.add_zero]
    by_cases hz : 0 < d
    · obtain ⟨a, b, c⟩ := h5 hz
      rw [if_pos (by simp [h1, h2, hz])]
      exact ⟨h1, h2, h3, fun hh => by omega, fun _ => ⟨rfl, by rw [← b, a]; simp, c⟩⟩
    · rw [if_neg (by simp [h2, hz])]
      exact ⟨h1, h2, h3, fun hh => by simpa using h4 hh, fun hh => (hz hh).elim⟩

theorem nesting_append (a b : List MaskOp) : nesting (a ++ b) = nesting a + nesting b := by
  unfold nesting; rw [List.count_append, List.count_append]; push_cast; ring

theorem MaskInv.steps {rest : Nat → Bool} : ∀ (os : List MaskOp) {s : Mask} {d : Int} {e f : Bool}, MaskInv rest s d e f → (∀ k, 0 ≤ d + nesting (os.take k)) →
    ∃ f', MaskInv rest (s.steps os) (d + nesting os) (e || decide (MaskOp.attach ∈ os)) f' ∧ (f = false → MaskOp.attach ∉ os → f' = false)
  | [], s, d, e, f, h, _ => ⟨f, by simpa [Mask.steps, nesting] using h, fun hf _ => hf⟩
  | o :: os, s, d, e, f, h, hd => by
    have hd0 : 0 ≤ d := by simpa [nesting] using hd 0
    have hd1 : 0 ≤ d + nesting [o] := by simpa using hd 1
    have hcons : ∀ t, nesting (o :: t) = nesting [o] + nesting t := fun t => nesting_append [o] t
    obtain ⟨f', h1, h2⟩ := MaskInv.steps os (h.step o hd0 hd1) (fun k => by
      have := hd (k + 1)
      rw [List.take_succ_cons, hcons] at this
      omega)
    refine ⟨f', ?_, fun hf hn => h2 ?_ (fun hh => hn (List.mem_cons_of_mem _ hh))⟩
    · rw [hcons, ← add_assoc]
      have : (e || decide (MaskOp.attach ∈ o :: os)) = ((e || decide (o = .attach)) || decide (MaskOp.attach ∈ os)) := by
        cases o <;> simp
      rw [this]; exact h1
    · subst hf
      cases o with
      | disable => simp [freshStep]
      | enable => rfl
      | attach => exact (hn (by simp)).elim
      | update => rfl

/-- **C53**.  After any nesting in which everything disabled is enabled again, with players attached and `updateResponse` called anywhere, the flag is what it
was before or set by an attachment, and the other flags of `yield` are as before. -/
theorem C53_restored (s : Mask) (hc : s.count = 0) (hf : s.force = false) (os : List MaskOp) (hn : Nested os) (hb : nesting os = 0) :
    (s.steps os).ev = (s.ev || decide (MaskOp.attach ∈ os)) ∧ (s.steps os).rest = s.rest ∧ (s.steps os).count = 0 := by
  obtain ⟨f, h, _⟩ := MaskInv.steps (rest := s.rest) os (s := s) (d := 0) (e := s.ev) (f := false)
    ⟨hf, hc, rfl, fun _ => rfl, fun h => by omega⟩ (fun k => by simpa using hn k)
  obtain ⟨_, h2, h3, h4, _⟩ := h
  exact ⟨h4 (by omega), h3, by rw [h2]; omega⟩

/-- **C53**, inside: from an outermost `disableResponse` or an `updateResponse` on, as long as the nesting is not over and nothing is attached, the response is masked. -/
theorem C53_masked (s : Mask) (hc : s.count = 0) (hf : s.force = false) (pre post : List MaskOp) (o : MaskOp)
    (ho : o = .update ∨ o = .disable ∧ nesting pre = 0) (hpost : MaskOp.attach ∉ post) (hn : Nested (pre ++ o :: post)) (hin : 0 < nesting (pre ++ o :: post)) :
    (s.steps (pre ++ o :: post)).ev = false := by
  have hpre : ∀ k, 0 ≤ nesting (pre.take k) := fun k => by
    rcases le_or_gt k pre.length with hk | hk
    · have := hn k; rwa [List.take_append_of_le_length hk] at this
    · have := hn pre.length
      rw [List.take_left] at this
      rwa [List.take_of_length_le hk.le]
  obtain ⟨f, h, _⟩ := MaskInv.steps (rest := s.rest) pre (s := s) (d := 0) (e := s.ev) (f := false)
    ⟨hf, hc, rfl, fun _ => rfl, fun h => by omega⟩ (fun k => by simpa using hpre k)
  rw [zero_add] at h
  have hd0 : 0 ≤ nesting pre := by have := hpre pre.length; rwa [List.take_length] at this
  have hcons : ∀ t, nesting (o :: t) = nesting [o] + nesting t := fun t => nesting_append [o] t
  have hpo : ∀ k, 0 ≤ nesting pre + nesting [o] + nesting (post.take k) := fun k => by
    have := hn (pre.length + (k + 1))
    rw [List.take_length_add_append, nesting_append, List.take_succ_cons, hcons] at this
    omega
  have h1 := h.step o hd0 (by simpa [nesting] using hpo 0)
  have hfr : freshStep (nesting pre) f o = false := by
    rcases ho with ho | ⟨ho, hz⟩ <;> subst ho
    · rfl
    · simp [freshStep, hz]
  rw [hfr] at h1
  obtain ⟨f', h2, h3⟩ := MaskInv.steps post h1 hpo
  obtain ⟨_, _, _, _, h4⟩ := h2
  rw [nesting_append, hcons] at hin
  have h5 := (h4 (by omega)).1
  rw [h3 rfl hpost] at h5
  rw [← h5]
  unfold Mask.steps
  rw [List.foldl_append, List.foldl_cons]

/-- **C53**, forced: the response is never masked. -/
theorem C53_forced (os : List MaskOp) : ∀ (s : Mask), s.force = true →
    (s.steps os).ev = (s.ev || decide (MaskOp.attach ∈ os)) ∧ (s.steps os).rest = s.rest := by
  induction os with
  | nil => intro s _; simp [Mask.steps]
  | cons o os ih =>
    intro s hf
    have key : (s.step o).force = true ∧ (s.step o).ev = (s.ev || decide (o = .attach)) ∧ (s.step o).rest = s.rest := by
      cases o
      · simp only [Mask.step, Mask.disable]; split <;> simp [hf]
      · simp only [Mask.step, Mask.enable]; split <;> simp [hf]
      · simp [Mask.step, Mask.attach, hf]
      · simp [Mask.step, Mask.update, hf]
    obtain ⟨h1, h2⟩ := ih (s.step o) key.1
    refine ⟨?_, ?_⟩
    · show ((s.step o).steps os).ev = _
      rw [h1, key.2.1]
      cases o <;> simp
    · show ((s.step o).steps os).rest = _
      rw [h2, key.2.2]

/-- An `enableResponse` too many leaves the nesting at 0, so that `C53_restored` and `C53_masked` apply to what follows. -/
theorem C53_extra_enable (s : Mask) (h : s.count ≤ 1) : s.enable.count = 0 := by
  unfold Mask.enable
  simp only
  rw [if_pos (by omega)]

/-- The rule on forcing matters: forcing the response within a nesting loses the flag. -/
theorem C53_force_inside (s : Mask) (hc : s.count = 0) (hf : s.force = false) : ({ s.disable with force := true } : Mask).enable.ev = false := by
  simp [Mask.disable, Mask.enable, hc, hf]

/-- `playWav` on a player (src/playresmp.h:62-74): disable, `stop` (disable, enable), attach, update, enable. -/
example : (({} : Mask).steps [.disable, .disable, .enable, .attach, .update, .enable]).ev = true :=
  (C53_restored {} rfl rfl [.disable, .disable, .enable, .attach, .update, .enable] (fun k => by
    rcases k with _ | _ | _ | _ | _ | _ | k <;> simp [nesting]) rfl).1

example : (({ ev := true } : Mask).steps [.disable, .disable, .enable, .attach, .update, .disable]).ev = false :=
  C53_masked { ev := true } rfl rfl [.disable, .disable, .enable, .attach] [.disable] .update (Or.inl rfl) (by simp) (fun k => by
    rcases k with _ | _ | _ | _ | _ | _ | k <;> simp [nesting]) (by decide)

end TVP
