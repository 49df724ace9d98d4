import Verif.Spec.Several
import Verif.Props.Events
import Verif.Props.Late

/-!
# Lemmas: several polled players
-/

namespace TVP
open Spec

variable {σ σ1 σ2 : Type}

/-- One player of any kind, with its pending event. -/
def Kind.turn (K : Kind σ) (p : σ × Option Ev) : Turn → M (List Fx × (σ × Option Ev))
  | .update al => do
    let (fx, x) ← K.update p.1 al
    return ([fx], (x, fx.event.or p.2))
  | .poll =>
    match p.2 with
    | none => .ok ([], p)
    | some e => do return ([], (← K.serve p.1 e, none))
  | .speed v => .ok ([], (K.speed p.1 v, p.2))

def Kind.turns (K : Kind σ) : σ × Option Ev → List Turn → M (List Fx × (σ × Option Ev))
  | p, [] => .ok ([], p)
  | p, t :: ts => do
    let (f1, p) ← K.turn p t
    let (f2, p) ← K.turns p ts
    return (f1 ++ f2, p)

theorem fileTurns_kind (fp : Fp) (g : Geo) (nullOk : Bool) (fuel : Nat) : ∀ (ts : List Turn) (p : FilePlayer),
    (fileKind fp g nullOk fuel).turns (p.rdr, p.pending) ts = (fileTurns fp g nullOk fuel p ts).map fun x => (x.1, (x.2.rdr, x.2.pending))
  | [], p => rfl
  | .update al :: ts, p => by
    unfold Kind.turns Kind.turn fileTurns FilePlayer.update
    simp only [fileKind]
    cases h : p.rdr.update fp g nullOk fuel al with
    | error e => rfl
    | ok x =>
      simp only [ok_bind]
      cases he : x.1.event with
      | none =>
        simp only [ok_bind, pure_eq_ok, Option.none_or]
        have := fileTurns_kind fp g nullOk fuel ts ⟨x.2, p.pending⟩
        simp only [fileKind] at this
        rw [this]
        cases fileTurns fp g nullOk fuel ⟨x.2, p.pending⟩ ts <;> rfl
      | some e =>
        simp only [ok_bind, pure_eq_ok, Option.some_or]
        have := fileTurns_kind fp g nullOk fuel ts ⟨x.2, some e⟩
        simp only [fileKind] at this
        rw [this]
        cases fileTurns fp g nullOk fuel ⟨x.2, some e⟩ ts <;> rfl
  | .poll :: ts, p => by
    unfold Kind.turns Kind.turn fileTurns FilePlayer.runEvent
    simp only
    cases hp : p.pending with
    | none =>
      simp only [ok_bind, List.nil_append]
      have := fileTurns_kind fp g nullOk fuel ts p
      rw [hp] at this
      rw [this]
      cases fileTurns fp g nullOk fuel p ts <;> rfl
    | some e =>
      simp only [fileKind]
      cases h : p.rdr.service fp g fuel e with
      | error e => rfl
      | ok x =>
        simp only [ok_bind, pure_eq_ok, List.nil_append]
        have := fileTurns_kind fp g nullOk fuel ts ⟨x, none⟩
        simp only [fileKind] at this
        rw [this]
        cases fileTurns fp g nullOk fuel ⟨x, none⟩ ts <;> rfl
  | .speed v :: ts, p => by
    unfold Kind.turns Kind.turn fileTurns
    simp only [ok_bind, List.nil_append]
    have := fileTurns_kind fp g nullOk fuel ts { p with rdr := { p.rdr with rd := p.rdr.rd.setPlaybackRate v } }
    simp only [fileKind] at this ⊢
    rw [this]
    cases fileTurns fp g nullOk fuel { p with rdr := { p.rdr with rd := p.rdr.rd.setPlaybackRate v } } ts <;> rfl

theorem memTurns_kind (fp : Fp) (fuel : Nat) : ∀ (ts : List Turn) (b : MemPlayer),
    (memKind fp fuel).turns (b.rdr, b.pending) ts = (memTurns fp fuel b ts).map fun x => (x.1, (x.2.rdr, x.2.pending))
  | [], p => rfl
  | .update al :: ts, p => by
    unfold Kind.turns Kind.turn memTurns MemPlayer.update
    simp only [memKind]
    cases h : p.rdr.update fp fuel al with
    | error e => rfl
    | ok x =>
      simp only [ok_bind]
      cases he : x.1.event with
      | none =>
        simp only [ok_bind, pure_eq_ok, Option.none_or]
        have := memTurns_kind fp fuel ts ⟨x.2, p.pending, p.served⟩
        simp only [memKind] at this
        rw [this]
        cases memTurns fp fuel ⟨x.2, p.pending, p.served⟩ ts <;> rfl
      | some e =>
        simp only [ok_bind, pure_eq_ok, Option.some_or]
        have := memTurns_kind fp fuel ts ⟨x.2, some e, p.served⟩
        simp only [memKind] at this
        rw [this]
        cases memTurns fp fuel ⟨x.2, some e, p.served⟩ ts <;> rfl
  | .poll :: ts, p => by
    unfold Kind.turns Kind.turn memTurns MemPlayer.runEvent
    simp only
    cases hp : p.pending with
    | none =>
      simp only [ok_bind, List.nil_append]
      have := memTurns_kind fp fuel ts p
      rw [hp] at this
      rw [this]
      cases memTurns fp fuel p ts <;> rfl
    | some e =>
      cases e with
      | reload =>
        simp only [memKind, ok_bind, pure_eq_ok, List.nil_append]
        have := memTurns_kind fp fuel ts { p with pending := none, served := p.served + 1 }
        simp only [memKind] at this
        rw [this]
        cases memTurns fp fuel { p with pending := none, served := p.served + 1 } ts <;> rfl
      | close =>
        simp only [memKind, ok_bind, pure_eq_ok, List.nil_append]
        have := memTurns_kind fp fuel ts { p with rdr := p.rdr.close, pending := none }
        simp only [memKind] at this
        rw [this]
        cases memTurns fp fuel { p with rdr := p.rdr.close, pending := none } ts <;> rfl
  | .speed v :: ts, p => by
    unfold Kind.turns Kind.turn memTurns
    simp only [ok_bind, List.nil_append]
    have := memTurns_kind fp fuel ts { p with rdr := { p.rdr with rd := p.rdr.rd.setPlaybackRate v } }
    simp only [memKind] at this ⊢
    rw [this]
    cases memTurns fp fuel { p with rdr := { p.rdr with rd := p.rdr.rd.setPlaybackRate v } } ts <;> rfl

/-! ## The events that wait -/

/-- The pending event of player `e`. -/
def Spec.Line.pend (l : Line) (e : Nat) : Option Ev := if e ∈ l.q then some (l.status e) else none

theorem Rep.raise {s : Evs} {l : Line} (h : Rep s l) (hl : Alive l) (e : Nat) (ev : Option Ev) :
    ∃ s' l', s.raise e ev = .ok s' ∧ Rep s' l' ∧ Alive l' ∧ l'.pend e = ev.or (l.pend e) ∧ (∀ i, i ≠ e → l'.pend i = l.pend i) ∧
      (l'.q = l.q ∨ (e ∉ l.q ∧ l'.q = l.q ++ [e])) := by
  cases ev with
  | none => exact ⟨s, l, rfl, h, hl, by simp, fun _ _ => rfl, Or.inl rfl⟩
  | some st =>
    obtain ⟨s', h1, h2⟩ := h.trigger (x := (e, st)) (fun _ hd => by rw [hl] at hd; cases hd)
    refine ⟨s', l.trigger (e, st), h1, h2, hl.trigger _, ?_, fun i hi => ?_, ?_⟩
    · unfold Line.pend Line.trigger
      by_cases hm : e ∈ l.q <;> simp [hm]
    · unfold Line.pend Line.trigger
      by_cases hm : e ∈ l.q <;> simp [hm, hi]
    · unfold Line.trigger
      by_cases hm : e ∈ l.q
      · left; simp [hm]
      · right; simp [hm]

theorem Rep.run {s : Evs} {l : Line} (h : Rep s l) (hl : Alive l) :
    ∃ s' res, s.runPolled {} = .ok (l.q.head?.map (fun e => (e, l.status e)), res, s') ∧ Rep s' { l with q := l.q.tail } ∧ Alive { l with q := l.q.tail } := by
  obtain ⟨s', h1, h2⟩ := h.poll {} trivial (fun _ => ⟨trivial, trivial⟩)
  have e1 : (l.poll {}).1 = l.q.head?.map (fun e => (e, l.status e)) := by
    unfold Line.poll; cases l.q <;> rfl
  have e2 : (l.poll {}).2 = { l with q := l.q.tail } := by
    unfold Line.poll Line.triggers
    cases hq : l.q with
    | nil => simp only [List.foldl_nil, List.tail_nil]; rw [← hq]
    | cons a t => simp only [List.foldl_nil]; rw [hq]
  rw [e1] at h1
  rw [e2] at h2
  exact ⟨s', _, h1, h2, hl.tail⟩

/-! ## Two desks -/

/-- Two players that cannot be told apart as long as their events are run in time. -/
def Same (K1 : Kind σ1) (K2 : Kind σ2) (R : Int) (n j : Nat) (x1 : σ1) (x2 : σ2) (pe : Option Ev) : Prop :=
  ∀ ts, Speeds R ts → Prompt n j ts → ∃ fxs y1 y2 pe', K1.turns (x1, pe) ts = .ok (fxs, (y1, pe')) ∧ K2.turns (x2, pe) ts = .ok (fxs, (y2, pe'))

theorem turns_cons {K : Kind σ} {p : σ × Option Ev} {t : Turn} {ts : List Turn} {fxs : List Fx} {p' : σ × Option Ev} (h : K.turns p (t :: ts) = .ok (fxs, p')) :
    ∃ f1 q f2, K.turn p t = .ok (f1, q) ∧ K.turns q ts = .ok (f2, p') ∧ fxs = f1 ++ f2 := by
  unfold Kind.turns at h
  obtain ⟨⟨f1, q⟩, h1, h⟩ := bind_ok_iff.1 h
  obtain ⟨⟨f2, q2⟩, h2, h⟩ := bind_ok_iff.1 h
  simp only [pure_eq_ok, Except.ok.injEq, Prod.mk.injEq] at h
  exact ⟨f1, q, f2, h1, by rw [h2]; rw [h.2], h.1.symm⟩

theorem turn_update {K : Kind σ} {p : σ × Option Ev} {al : Nat → Bool} {f : List Fx} {q : σ × Option Ev} (h : K.turn p (.update al) = .ok (f, q)) :
    ∃ fx x, K.update p.1 al = .ok (fx, x) ∧ f = [fx] ∧ q = (x, fx.event.or p.2) := by
  unfold Kind.turn at h
  simp only at h
  obtain ⟨⟨fx, x⟩, h1, h⟩ := bind_ok_iff.1 h
  simp only [pure_eq_ok, Except.ok.injEq, Prod.mk.injEq] at h
  exact ⟨fx, x, h1, h.1.symm, h.2.symm⟩

variable {K1 : Kind σ1} {K2 : Kind σ2} {R : Int} {n j : Nat} {x1 : σ1} {x2 : σ2} {pe : Option Ev}

theorem Same.update (h : Same K1 K2 R n j x1 x2 pe) (hj : j < n) (al : Nat → Bool) :
    ∃ fx y1 y2, K1.update x1 al = .ok (fx, y1) ∧ K2.update x2 al = .ok (fx, y2) ∧ Same K1 K2 R n (j + 1) y1 y2 (fx.event.or pe) := by
  have go : ∀ ts, Speeds R ts → Prompt n (j + 1) ts → ∃ fx y1 y2, K1.update x1 al = .ok (fx, y1) ∧ K2.update x2 al = .ok (fx, y2) ∧
      ∃ fxs z1 z2 pe', K1.turns (y1, fx.event.or pe) ts = .ok (fxs, (z1, pe')) ∧ K2.turns (y2, fx.event.or pe) ts = .ok (fxs, (z2, pe')) := by
    intro ts hs hp
    obtain ⟨fxs, z1, z2, pe', h1, h2⟩ := h (.update al :: ts) (fun v hv => hs v (by simpa using hv)) ⟨hj, hp⟩
    obtain ⟨f1, q1, f2, a1, a2, a3⟩ := turns_cons h1
    obtain ⟨g1, r1, g2, b1, b2, b3⟩ := turns_cons h2
    obtain ⟨fx, y1, c1, c2, c3⟩ := turn_update a1
    obtain ⟨fx', y2, d1, d2, d3⟩ := turn_update b1
    subst c2 c3 d2 d3
    rw [a3] at b3
    simp only [List.singleton_append, List.cons.injEq] at b3
    obtain ⟨rfl, rfl⟩ := b3
    exact ⟨fx, y1, y2, c1, d1, f2, z1, z2, pe', a2, b2⟩
  obtain ⟨fx, y1, y2, e1, e2, _⟩ := go [] (fun v hv => by cases hv) trivial
  refine ⟨fx, y1, y2, e1, e2, fun ts hs hp => ?_⟩
  obtain ⟨fx', y1', y2', f1, f2, rest⟩ := go ts hs hp
  rw [e1] at f1
  rw [e2] at f2
  injection f1 with f1; injection f2 with f2
  injection f1 with u1 u2; injection f2 with _ u3
  subst u1 u2 u3
  exact rest

theorem Same.speed (h : Same K1 K2 R n j x1 x2 pe) {v : ℚ} (h0 : 0 ≤ v) (hR : v ≤ R) : Same K1 K2 R n j (K1.speed x1 v) (K2.speed x2 v) pe := by
  intro ts hs hp
  obtain ⟨fxs, z1, z2, pe', h1, h2⟩ := h (.speed v :: ts) (fun w hw => by
    rcases List.mem_cons.1 hw with e | hw
    · injection e with e; rw [e]; exact ⟨h0, hR⟩
    · exact hs w hw) hp
  obtain ⟨f1, q1, f2, a1, a2, a3⟩ := turns_cons h1
  obtain ⟨g1, r1, g2, b1, b2, b3⟩ := turns_cons h2
  unfold Kind.turn at a1 b1
  injection a1 with a1; injection b1 with b1
  injection a1 with u1 u2; injection b1 with w1 w2
  subst u1 u2 w1 w2
  rw [a3] at b3
  simp only [List.nil_append] at b3
  subst b3
  exact ⟨f2, z1, z2, pe', a2, b2⟩

theorem Same.idle (h : Same K1 K2 R n j x1 x2 none) : Same K1 K2 R n 0 x1 x2 none := by
  intro ts hs hp
  obtain ⟨fxs, z1, z2, pe', h1, h2⟩ := h (.poll :: ts) (fun v hv => hs v (by simpa using hv)) hp
  obtain ⟨f1, q1, f2, a1, a2, a3⟩ := turns_cons h1
  obtain ⟨g1, r1, g2, b1, b2, b3⟩ := turns_cons h2
  unfold Kind.turn at a1 b1
  injection a1 with a1; injection b1 with b1
  injection a1 with u1 u2; injection b1 with w1 w2
  subst u1 u2 w1 w2
  rw [a3] at b3
  simp only [List.nil_append] at b3
  subst b3
  exact ⟨f2, z1, z2, pe', a2, b2⟩

theorem Same.serve {e : Ev} (h : Same K1 K2 R n j x1 x2 (some e)) :
    ∃ y1 y2, K1.serve x1 e = .ok y1 ∧ K2.serve x2 e = .ok y2 ∧ Same K1 K2 R n 0 y1 y2 none := by
  have go : ∀ ts, Speeds R ts → Prompt n 0 ts → ∃ y1 y2, K1.serve x1 e = .ok y1 ∧ K2.serve x2 e = .ok y2 ∧
      ∃ fxs z1 z2 pe', K1.turns (y1, none) ts = .ok (fxs, (z1, pe')) ∧ K2.turns (y2, none) ts = .ok (fxs, (z2, pe')) := by
    intro ts hs hp
    obtain ⟨fxs, z1, z2, pe', h1, h2⟩ := h (.poll :: ts) (fun v hv => hs v (by simpa using hv)) hp
    obtain ⟨f1, q1, f2, a1, a2, a3⟩ := turns_cons h1
    obtain ⟨g1, r1, g2, b1, b2, b3⟩ := turns_cons h2
    unfold Kind.turn at a1 b1
    simp only at a1 b1
    obtain ⟨y1, c1, a1⟩ := bind_ok_iff.1 a1
    obtain ⟨y2, d1, b1⟩ := bind_ok_iff.1 b1
    simp only [pure_eq_ok, Except.ok.injEq, Prod.mk.injEq] at a1 b1
    obtain ⟨u1, u2⟩ := a1; obtain ⟨w1, w2⟩ := b1
    subst u1 u2 w1 w2
    rw [a3] at b3
    simp only [List.nil_append] at b3
    subst b3
    exact ⟨y1, y2, c1, d1, f2, z1, z2, pe', a2, b2⟩
  obtain ⟨y1, y2, e1, e2, _⟩ := go [] (fun v hv => by cases hv) trivial
  refine ⟨y1, y2, e1, e2, fun ts hs hp => ?_⟩
  obtain ⟨y1', y2', f1, f2, rest⟩ := go ts hs hp
  rw [e1] at f1
  rw [e2] at f2
  injection f1 with f1; injection f2 with f2
  subst f1 f2
  exact rest

theorem calls_append : ∀ (s t : List Move), calls (s ++ t) = calls s + calls t
  | [], t => by simp [calls]
  | .run :: s, t => by simp only [List.cons_append, calls, calls_append s t]; omega
  | .update _ _ :: s, t => by simp only [List.cons_append, calls, calls_append s t]
  | .speed _ _ :: s, t => by simp only [List.cons_append, calls, calls_append s t]

theorem updatesOf_append (e : Nat) : ∀ (s t : List Move), updatesOf e (s ++ t) = updatesOf e s + updatesOf e t
  | [], t => by simp [updatesOf]
  | .run :: s, t => by simp only [List.cons_append, updatesOf, updatesOf_append e s t]
  | .update _ _ :: s, t => by simp only [List.cons_append, updatesOf, updatesOf_append e s t]; omega
  | .speed _ _ :: s, t => by simp only [List.cons_append, updatesOf, updatesOf_append e s t]

/-- What holds of player `e` after the moves `hist`: the two players cannot be told apart, `s` being what happened since its event was last run or had nothing to run. -/
def Tied (K1 : Kind σ1) (K2 : Kind σ2) (R : Int) (k n e : Nat) (hist : List Move) (l : Line) (x1 : σ1) (x2 : σ2) : Prop :=
  ∃ s, s <:+ hist ∧ Same K1 K2 R n (updatesOf e s) x1 x2 (l.pend e) ∧ (e ∉ l.q → calls s = 0) ∧ (e ∈ l.q → l.q.idxOf e + calls s < k)

theorem Tied.calls {k e : Nat} {s : List Move} {l : Line} (he : e < k) (h1 : e ∉ l.q → calls s = 0) (h2 : e ∈ l.q → l.q.idxOf e + calls s < k) : calls s < k := by
  by_cases hm : e ∈ l.q
  · have := h2 hm; omega
  · have := h1 hm; omega

theorem queue_short {q : List Nat} {k e : Nat} (hq : q.Nodup) (hk : ∀ i ∈ q, i < k) (he : e < k) (hn : e ∉ q) : q.length < k := by
  have h1 : (e :: q).Nodup := List.nodup_cons.2 ⟨hn, hq⟩
  have h2 : (e :: q) ⊆ List.range k := by
    intro i hi
    rcases List.mem_cons.1 hi with rfl | hi
    · exact List.mem_range.2 he
    · exact List.mem_range.2 (hk i hi)
  have := (h1.subperm h2).length_le
  simp only [List.length_cons, List.length_range] at this
  omega

/-- The two desks do the same. -/
theorem desks {J1 : Nat → Kind σ1} {J2 : Nat → Kind σ2} {R : Nat → Int} {k : Nat} {N : Nat → Nat} : ∀ (ms hist : List Move) (d1 : Desk σ1) (d2 : Desk σ2) (l : Line),
    Among k R ms → (∀ e, e < k → Often k (N e) e (hist ++ ms)) → d1.evs = d2.evs → Rep d1.evs l → Alive l → (∀ i ∈ l.q, i < k) →
    (∀ e, e < k → Tied (J1 e) (J2 e) (R e) k (N e) e hist l (d1.rdr e) (d2.rdr e)) →
    ∃ log d1' d2', d1.steps J1 ms = .ok (log, d1') ∧ d2.steps J2 ms = .ok (log, d2') ∧ d1'.evs = d2'.evs
  | [], hist, d1, d2, l, _, _, hev, _, _, _, _ => ⟨[], d1, d2, rfl, rfl, hev⟩
  | .update e al :: ms, hist, d1, d2, l, hA, hO, hev, hr, hl, hk, ht => by
    have he : e < k := hA.1 e al List.mem_cons_self
    obtain ⟨s, s1, s2, s3, s4⟩ := ht e he
    have hc := Tied.calls he s3 s4
    have hj : updatesOf e s < N e := by
      have := hO e he (s ++ [.update e al]) (by
        obtain ⟨t, ht⟩ := s1
        exact ⟨t, ms, by rw [← ht]; simp⟩) (by rw [calls_append]; simpa [Spec.calls] using hc)
      rw [updatesOf_append] at this
      simp only [updatesOf, if_true] at this
      omega
    obtain ⟨fx, y1, y2, u1, u2, u3⟩ := s2.update hj al
    obtain ⟨evs', l', r1, r2, r3, r4, r5, r6⟩ := hr.raise hl e fx.event
    have hk' : ∀ i ∈ l'.q, i < k := by
      rcases r6 with r6 | ⟨_, r6⟩ <;> rw [r6]
      · exact hk
      · intro i hi
        rcases List.mem_append.1 hi with hi | hi
        · exact hk i hi
        · rw [List.mem_singleton.1 hi]; exact he
    obtain ⟨log, d1', d2', g1, g2, g3⟩ := desks ms (hist ++ [.update e al]) { d1.set e y1 with evs := evs' } { d2.set e y2 with evs := evs' } l'
      ⟨fun i a h => hA.1 i a (List.mem_cons_of_mem _ h), fun i v h => hA.2 i v (List.mem_cons_of_mem _ h)⟩ (fun i hi => by rw [List.append_assoc]; exact hO i hi) rfl r2 r3 hk' (fun i hi => by
        by_cases hie : i = e
        · subst hie
          simp only [Desk.set, if_true]
          refine ⟨s ++ [.update i al], ?_, ?_, ?_, ?_⟩
          · obtain ⟨t, ht⟩ := s1
            exact ⟨t, by rw [← ht]; simp⟩
          · rw [updatesOf_append, r4]; simpa [updatesOf] using u3
          · intro hm
            rw [calls_append]
            have : i ∉ l.q := by rcases r6 with r6 | ⟨_, r6⟩ <;> rw [r6] at hm <;> [exact hm; exact fun h => hm (List.mem_append_left _ h)]
            simpa [Spec.calls] using s3 this
          · intro _
            rw [calls_append]
            simp only [Spec.calls, Nat.add_zero]
            rcases r6 with r6 | ⟨q1, r6⟩
            · rw [r6]
              by_cases hm : i ∈ l.q
              · exact s4 hm
              · rename_i hm'
                rw [r6] at hm'
                exact absurd hm' hm
            · rw [r6, List.idxOf_append_of_notMem q1, s3 q1]
              simpa using queue_short hr.nodup hk he q1
        · simp only [Desk.set, if_neg hie]
          obtain ⟨s, s1, s2, s3, s4⟩ := ht i hi
          have hmem : i ∈ l'.q ↔ i ∈ l.q := by
            rcases r6 with r6 | ⟨_, r6⟩ <;> rw [r6]
            simp [hie]
          refine ⟨s ++ [.update e al], ?_, ?_, ?_, ?_⟩
          · obtain ⟨t, ht⟩ := s1
            exact ⟨t, by rw [← ht]; simp⟩
          · rw [updatesOf_append, r5 i hie]; simpa [updatesOf, Ne.symm hie] using s2
          · intro hm
            rw [calls_append]; simpa [Spec.calls] using s3 (fun h => hm (hmem.2 h))
          · intro hm
            have hm' := hmem.1 hm
            rw [calls_append]
            have : l'.q.idxOf i = l.q.idxOf i := by
              rcases r6 with r6 | ⟨_, r6⟩ <;> rw [r6]
              exact List.idxOf_append_of_mem hm'
            rw [this]; simpa [Spec.calls] using s4 hm')
    refine ⟨.updated e fx :: log, d1', d2', ?_, ?_, g3⟩
    · unfold Desk.steps Desk.step
      simp only [u1, ok_bind, r1, pure_eq_ok, g1]
    · unfold Desk.steps Desk.step
      rw [hev] at r1
      simp only [u2, ok_bind, r1, pure_eq_ok, g2]
  | .speed e v :: ms, hist, d1, d2, l, hA, hO, hev, hr, hl, hk, ht => by
    obtain ⟨he, v0, vR⟩ := hA.2 e v List.mem_cons_self
    obtain ⟨log, d1', d2', g1, g2, g3⟩ := desks ms (hist ++ [.speed e v]) (d1.set e ((J1 e).speed (d1.rdr e) v)) (d2.set e ((J2 e).speed (d2.rdr e) v)) l
      ⟨fun i a h => hA.1 i a (List.mem_cons_of_mem _ h), fun i v h => hA.2 i v (List.mem_cons_of_mem _ h)⟩ (fun i hi => by rw [List.append_assoc]; exact hO i hi) hev hr hl hk (fun i hi => by
        obtain ⟨s, s1, s2, s3, s4⟩ := ht i hi
        refine ⟨s ++ [.speed e v], ?_, ?_, ?_, ?_⟩
        · obtain ⟨t, ht⟩ := s1
          exact ⟨t, by rw [← ht]; simp⟩
        · rw [updatesOf_append]
          simp only [updatesOf, Nat.add_zero]
          by_cases hie : i = e
          · subst hie; simp only [Desk.set, if_true]; exact s2.speed v0 vR
          · simp only [Desk.set, if_neg hie]; exact s2
        · intro hm; rw [calls_append]; simpa [Spec.calls] using s3 hm
        · intro hm; rw [calls_append]; simpa [Spec.calls] using s4 hm)
    refine ⟨.set e :: log, d1', d2', ?_, ?_, g3⟩
    · unfold Desk.steps Desk.step
      simp only [ok_bind, pure_eq_ok, g1]
    · unfold Desk.steps Desk.step
      simp only [ok_bind, pure_eq_ok, g2]
  | .run :: ms, hist, d1, d2, l, hA, hO, hev, hr, hl, hk, ht => by
    obtain ⟨evs', res, r1, r2, r3⟩ := hr.run hl
    have hA' : Among k R ms := ⟨fun i a h => hA.1 i a (List.mem_cons_of_mem _ h), fun i v h => hA.2 i v (List.mem_cons_of_mem _ h)⟩
    have hk' : ∀ i ∈ l.q.tail, i < k := fun i hi => hk i (List.mem_of_mem_tail hi)
    -- those who wait behind the first, and those who do not wait
    have others : ∀ i, i < k → l.q.head? ≠ some i → Tied (J1 i) (J2 i) (R i) k (N i) i (hist ++ [.run]) { l with q := l.q.tail } (d1.rdr i) (d2.rdr i) := by
      intro i hi hne
      obtain ⟨s, s1, s2, s3, s4⟩ := ht i hi
      have hmem : i ∈ l.q.tail ↔ i ∈ l.q := by
        cases hq : l.q with
        | nil => simp
        | cons a t =>
          have : i ≠ a := fun h => hne (by rw [hq, h]; rfl)
          simp [this]
      have hpend : ({ l with q := l.q.tail } : Line).pend i = l.pend i := by
        unfold Line.pend; simp only [hmem]
      by_cases hm : i ∈ l.q
      · refine ⟨s ++ [.run], ?_, ?_, ?_, ?_⟩
        · obtain ⟨t, ht⟩ := s1
          exact ⟨t, by rw [← ht]; simp⟩
        · rw [updatesOf_append, hpend]; simpa [updatesOf] using s2
        · intro h; exact absurd (hmem.2 hm) h
        · intro _
          rw [calls_append]
          have h4 := s4 hm
          simp only [Spec.calls]
          cases hq : l.q with
          | nil => rw [hq] at hm; cases hm
          | cons a t =>
            have : a ≠ i := fun h => hne (by rw [hq, h]; rfl)
            rw [hq, List.idxOf_cons_ne t this] at h4
            simp only [List.tail_cons]
            omega
      · refine ⟨[], List.nil_suffix, ?_, fun _ => rfl, fun h => absurd (hmem.1 h) hm⟩
        rw [hpend]
        have hp : l.pend i = none := by unfold Line.pend; rw [if_neg hm]
        rw [hp] at s2 ⊢
        exact s2.idle
    cases hq : l.q with
    | nil =>
      rw [hq] at r1
      obtain ⟨log, d1', d2', g1, g2, g3⟩ := desks ms (hist ++ [.run]) { d1 with evs := evs' } { d2 with evs := evs' } { l with q := l.q.tail }
        hA' (fun i hi => by rw [List.append_assoc]; exact hO i hi) rfl r2 r3 hk' (fun i hi => others i hi (by rw [hq]; simp))
      refine ⟨.ran none res :: log, d1', d2', ?_, ?_, g3⟩
      · unfold Desk.steps Desk.step
        simp only [r1, List.head?_nil, Option.map_none, ok_bind, pure_eq_ok, g1]
      · unfold Desk.steps Desk.step
        rw [hev] at r1
        simp only [r1, List.head?_nil, Option.map_none, ok_bind, pure_eq_ok, g2]
    | cons e t =>
      rw [hq] at r1
      have he : e < k := hk e (by rw [hq]; exact List.mem_cons_self)
      obtain ⟨s, s1, s2, s3, s4⟩ := ht e he
      have hp : l.pend e = some (l.status e) := by unfold Line.pend; rw [if_pos (by rw [hq]; exact List.mem_cons_self)]
      rw [hp] at s2
      obtain ⟨y1, y2, u1, u2, u3⟩ := s2.serve
      have hnt : e ∉ t := by have := hr.nodup; rw [hq] at this; exact (List.nodup_cons.1 this).1
      obtain ⟨log, d1', d2', g1, g2, g3⟩ := desks ms (hist ++ [.run]) { d1.set e y1 with evs := evs' } { d2.set e y2 with evs := evs' } { l with q := l.q.tail }
        hA' (fun i hi => by rw [List.append_assoc]; exact hO i hi) rfl r2 r3 hk' (fun i hi => by
          by_cases hie : i = e
          · subst hie
            simp only [Desk.set, if_true]
            have hp' : ({ l with q := l.q.tail } : Line).pend i = none := by unfold Line.pend; simp only [hq, List.tail_cons]; rw [if_neg hnt]
            refine ⟨[], List.nil_suffix, ?_, fun _ => rfl, fun h => ?_⟩
            · rw [hp']; exact u3
            · simp only [hq, List.tail_cons] at h; exact absurd h hnt
          · simp only [Desk.set, if_neg hie]
            exact others i hi (by rw [hq]; simp only [List.head?_cons, ne_eq, Option.some.injEq]; exact fun h => hie h.symm))
      refine ⟨.ran (some (e, l.status e)) res :: log, d1', d2', ?_, ?_, g3⟩
      · unfold Desk.steps Desk.step
        simp only [r1, List.head?_cons, Option.map_some, ok_bind, u1, pure_eq_ok, g1]
      · unfold Desk.steps Desk.step
        rw [hev] at r1
        simp only [r1, List.head?_cons, Option.map_some, ok_bind, u2, pure_eq_ok, g2]

/-! ## One of them -/

theorem turns_step {K : Kind σ} {p q q' : σ × Option Ev} {t : Turn} {ts : List Turn} {f1 f2 : List Fx} (h1 : K.turn p t = .ok (f1, q)) (h2 : K.turns q ts = .ok (f2, q')) :
    K.turns p (t :: ts) = .ok (f1 ++ f2, q') := by
  unfold Kind.turns; rw [h1]; simp only [ok_bind, h2]; rfl

/-- What a player does depends on nothing but its own updates and speeds and on when its event is run. -/
theorem alone {J : Nat → Kind σ} (e : Nat) : ∀ (ms : List Move) (d d' : Desk σ) (l : Line) (log : List Did), Rep d.evs l → Alive l → d.steps J ms = .ok (log, d') →
    ∃ l', Rep d'.evs l' ∧ Alive l' ∧ (J e).turns (d.rdr e, l.pend e) (seenBy e ms log) = .ok (effectsOf e log, (d'.rdr e, l'.pend e))
  | [], d, d', l, log, hr, hl, h => by
    injection h with h; injection h with h1 h2
    subst h1 h2
    exact ⟨l, hr, hl, rfl⟩
  | m :: ms, d, d', l, log, hr, hl, h => by
    unfold Desk.steps at h
    obtain ⟨⟨x, d1⟩, h1, h⟩ := bind_ok_iff.1 h
    obtain ⟨⟨xs, d2⟩, h2, h⟩ := bind_ok_iff.1 h
    simp only [pure_eq_ok, Except.ok.injEq, Prod.mk.injEq] at h
    obtain ⟨rfl, rfl⟩ := h
    cases m with
    | update i al =>
      unfold Desk.step at h1
      simp only at h1
      obtain ⟨⟨fx, y⟩, u1, h1⟩ := bind_ok_iff.1 h1
      obtain ⟨evs, u2, h1⟩ := bind_ok_iff.1 h1
      simp only [pure_eq_ok, Except.ok.injEq, Prod.mk.injEq] at h1
      obtain ⟨rfl, rfl⟩ := h1
      obtain ⟨evs', l1, r1, r2, r3, r4, r5, _⟩ := hr.raise hl i fx.event
      rw [u2] at r1
      injection r1 with r1
      subst r1
      obtain ⟨l', g1, g2, g3⟩ := alone e ms _ _ l1 _ r2 r3 h2
      refine ⟨l', g1, g2, ?_⟩
      unfold seenBy effectsOf
      by_cases hie : i = e
      · subst hie
        simp only [if_true]
        simp only [Desk.set, if_true, r4] at g3
        exact turns_step (f1 := [fx]) (by unfold Kind.turn; simp only [u1, ok_bind, pure_eq_ok]) g3
      · simp only [if_neg hie]
        simp only [Desk.set, if_neg (Ne.symm hie), r5 e (Ne.symm hie)] at g3
        exact g3
    | speed i v =>
      unfold Desk.step at h1
      simp only [pure_eq_ok, Except.ok.injEq, Prod.mk.injEq] at h1
      obtain ⟨rfl, rfl⟩ := h1
      obtain ⟨l', g1, g2, g3⟩ := alone e ms _ _ l _ (show Rep (d.set i ((J i).speed (d.rdr i) v)).evs l from hr) hl h2
      refine ⟨l', g1, g2, ?_⟩
      unfold seenBy effectsOf
      by_cases hie : i = e
      · subst hie
        simp only [if_true]
        simp only [Desk.set, if_true] at g3
        exact turns_step (f1 := []) rfl g3
      · simp only [if_neg hie]
        simp only [Desk.set, if_neg (Ne.symm hie)] at g3
        exact g3
    | run =>
      unfold Desk.step at h1
      simp only at h1
      obtain ⟨evs', res, r1, r2, r3⟩ := hr.run hl
      rw [r1] at h1
      simp only [ok_bind] at h1
      cases hq : l.q with
      | nil =>
        rw [hq] at h1
        simp only [List.head?_nil, Option.map_none, pure_eq_ok, Except.ok.injEq, Prod.mk.injEq] at h1
        obtain ⟨rfl, rfl⟩ := h1
        obtain ⟨l', g1, g2, g3⟩ := alone e ms _ _ _ _ r2 r3 h2
        refine ⟨l', g1, g2, ?_⟩
        unfold seenBy effectsOf
        simp only [Option.map_none, reduceCtorEq, if_false]
        have : ({ l with q := l.q.tail } : Line).pend e = l.pend e := by unfold Line.pend; simp only [hq, List.tail_nil]
        rw [this] at g3
        exact g3
      | cons a t =>
        rw [hq] at h1
        simp only [List.head?_cons, Option.map_some] at h1
        obtain ⟨y, u1, h1⟩ := bind_ok_iff.1 h1
        simp only [pure_eq_ok, Except.ok.injEq, Prod.mk.injEq] at h1
        obtain ⟨rfl, rfl⟩ := h1
        obtain ⟨l', g1, g2, g3⟩ := alone e ms _ _ _ _ r2 r3 h2
        refine ⟨l', g1, g2, ?_⟩
        have hnt : a ∉ t := by have := hr.nodup; rw [hq] at this; exact (List.nodup_cons.1 this).1
        unfold seenBy effectsOf
        simp only [Option.map_some, Option.some.injEq]
        by_cases hae : a = e
        · subst hae
          simp only [if_true]
          have hp : l.pend a = some (l.status a) := by unfold Line.pend; rw [if_pos (by rw [hq]; exact List.mem_cons_self)]
          have hp' : ({ l with q := l.q.tail } : Line).pend a = none := by unfold Line.pend; simp only [hq, List.tail_cons]; rw [if_neg hnt]
          rw [hp'] at g3
          simp only [Desk.set, if_true] at g3
          rw [hp]
          exact turns_step (f1 := []) (by unfold Kind.turn; simp only [u1, ok_bind, pure_eq_ok]) g3
        · simp only [if_neg hae]
          have : ({ l with q := l.q.tail } : Line).pend e = l.pend e := by unfold Line.pend; simp only [hq, List.tail_cons, List.mem_cons, Ne.symm hae, false_or]
          rw [this] at g3
          simp only [Desk.set, if_neg (Ne.symm hae)] at g3
          exact g3

end TVP
