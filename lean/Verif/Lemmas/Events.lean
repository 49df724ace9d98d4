import Verif.Spec.Queue
import Verif.Lemmas.Play

/-!
# The list of polled events represents a line
-/

namespace TVP
open Spec

/-- The `anext` pointers run through the queue. -/
def Chain (node : Nat → Node) : List Nat → Prop
  | [] => True
  | [e] => (node e).anext = none
  | e :: f :: q => (node e).anext = some f ∧ Chain node (f :: q)

theorem Chain.congr {n n' : Nat → Node} : ∀ {q : List Nat}, (∀ e ∈ q, (n' e).anext = (n e).anext) → Chain n q → Chain n' q
  | [], _, _ => trivial
  | [e], h, hc => by
    unfold Chain at *; rw [h e (by simp)]; exact hc
  | e :: f :: q, h, hc => by
    unfold Chain at *
    exact ⟨by rw [h e (by simp)]; exact hc.1, Chain.congr (fun x hx => h x (by simp [hx])) hc.2⟩

theorem Chain.snoc {n n' : Nat → Node} {e : Nat} : ∀ {q : List Nat} {l : Nat}, q.getLast? = some l → e ∉ q → q.Nodup →
    (∀ x ∈ q, x ≠ l → (n' x).anext = (n x).anext) → (n' l).anext = some e → (n' e).anext = none → Chain n q → Chain n' (q ++ [e])
  | [], _, h, _, _, _, _, _, _ => by cases h
  | [x], l, h, he, _, _, h2, h3, _ => by
    simp only [List.getLast?_singleton, Option.some.injEq] at h
    subst h
    exact ⟨h2, h3⟩
  | x :: y :: q, l, h, he, hn, h1, h2, h3, hc => by
    rw [List.getLast?_cons_cons] at h
    have hxl : x ≠ l := by
      intro hx; subst hx
      exact (List.nodup_cons.1 hn).1 (List.mem_of_getLast? h)
    refine ⟨by rw [h1 x (by simp) hxl]; exact hc.1, ?_⟩
    exact Chain.snoc (q := y :: q) h (fun hm => he (List.mem_cons_of_mem _ hm)) (List.nodup_cons.1 hn).2
      (fun z hz => h1 z (List.mem_cons_of_mem _ hz)) h2 h3 hc.2

theorem Chain.last {n : Nat → Node} : ∀ {q : List Nat} {l : Nat}, q.getLast? = some l → Chain n q → (n l).anext = none
  | [], _, h, _ => by cases h
  | [x], l, h, hc => by
    simp only [List.getLast?_singleton, Option.some.injEq] at h
    subst h; exact hc
  | x :: y :: q, l, h, hc => by
    rw [List.getLast?_cons_cons] at h
    exact Chain.last (q := y :: q) h hc.2

theorem Chain.tail {n : Nat → Node} {e : Nat} {q : List Nat} (h : Chain n (e :: q)) : (n e).anext = q.head? ∧ Chain n q := by
  cases q with
  | nil => exact ⟨h, trivial⟩
  | cons f q => exact ⟨h.1, h.2⟩

/-- The state `s` of the list represents the line `l`. -/
structure Rep (s : Evs) (l : Line) : Prop where
  first : s.first = l.q.head?
  last : l.q ≠ [] → s.last = l.q.getLast?
  chain : Chain s.node l.q
  nodup : l.q.Nodup
  trig : ∀ e, (s.node e).triggered = true ↔ e ∈ l.q ∧ l.dead e = false
  status : ∀ e, (s.node e).status = l.status e
  polled : ∀ e, (s.node e).polled = true ∧ (s.node e).detached = false

theorem Rep.init : Rep {} {} := ⟨rfl, fun h => (h rfl).elim, trivial, List.nodup_nil, fun e => by simp, fun _ => rfl, fun _ => ⟨rfl, rfl⟩⟩

/-- A trigger is harmless unless its event was cancelled while waiting with others behind it. -/
def Line.Harmless (l : Line) (e : Nat) : Prop := e ∈ l.q → l.dead e = true → l.q.getLast? = some e

theorem addToList_empty {s : Evs} {e : Nat} (h : s.first = none) :
    s.addToList e = .ok { (s.set e { s.node e with aprev := none, anext := none }) with first := some e, last := some e } := by
  unfold Evs.addToList; rw [h]

theorem addToList_cons {s : Evs} {e a z : Nat} (h : s.first = some a) (hl : s.last = some z) :
    ∃ s', s.addToList e = .ok s' ∧ s'.first = some a ∧ s'.last = some e ∧ (s'.node e).anext = none ∧
      (z ≠ e → (s'.node z).anext = some e) ∧ (∀ x, x ≠ e → x ≠ z → (s'.node x).anext = (s.node x).anext) ∧
      ∀ x, (s'.node x).triggered = (s.node x).triggered ∧ (s'.node x).status = (s.node x).status ∧ (s'.node x).polled = (s.node x).polled ∧
        (s'.node x).detached = (s.node x).detached := by
  unfold Evs.addToList
  simp only [h, hl]
  refine ⟨_, rfl, ?_, rfl, ?_, ?_, ?_, ?_⟩
  · simp [Evs.set, h]
  · simp [Evs.set]
  · intro hz; simp [Evs.set, hz]
  · intro x hxe hxz; simp [Evs.set, hxe, hxz]
  · intro x
    by_cases hxe : x = e <;> by_cases hxz : x = z
    · subst hxe; subst hxz; simp [Evs.set]
    · subst hxe; simp [Evs.set, hxz]
    · subst hxz; simp [Evs.set, hxe]
    · simp [Evs.set, hxe, hxz]

theorem trigger_polled {s : Evs} {e : Nat} {st : Ev} (h : (s.node e).polled = true) :
    s.trigger e st = (s.set e { s.node e with status := st }).enqueue e >>= fun s' => .ok (s'.settle e) := by
  unfold Evs.trigger
  simp only [Evs.set, if_true, h]
  rfl

theorem Rep.trigger {s : Evs} {l : Line} (h : Rep s l) {x : Nat × Ev} (hx : Line.Harmless l x.1) :
    ∃ s', s.trigger x.1 x.2 = .ok s' ∧ Rep s' (l.trigger x) := by
  obtain ⟨e, st⟩ := x
  simp only at hx
  obtain ⟨h1, h2, h3, h4, h5, h6, h7⟩ := h
  rw [trigger_polled (h7 e).1]
  obtain ⟨s1, hs1⟩ : ∃ s1, s1 = s.set e { s.node e with status := st } := ⟨_, rfl⟩
  rw [← hs1]
  have k1 : s1.first = l.q.head? := by rw [hs1]; exact h1
  have k2 : l.q ≠ [] → s1.last = l.q.getLast? := by rw [hs1]; exact h2
  have kn : ∀ x, (s1.node x).anext = (s.node x).anext ∧ (s1.node x).triggered = (s.node x).triggered ∧
      (s1.node x).polled = true ∧ (s1.node x).detached = false ∧ (s1.node x).status = if x = e then st else l.status x := by
    intro x
    rw [hs1]
    by_cases hxe : x = e
    · subst hxe; simp [Evs.set, h7 x]
    · simp [Evs.set, hxe, h7 x, h6 x]
  clear hs1
  have k3 : Chain s1.node l.q := Chain.congr (fun x _ => (kn x).1) h3
  unfold Evs.enqueue
  by_cases htr : (s.node e).triggered = true
  · have hm := (h5 e).1 htr
    rw [if_pos (by rw [(kn e).2.1]; exact htr)]
    refine ⟨s1, by simp [Evs.settle, kn e], ?_⟩
    unfold Line.trigger
    simp only [hm.1, if_true]
    refine ⟨k1, k2, k3, h4, fun x => ?_, fun x => (kn x).2.2.2.2, fun x => ⟨(kn x).2.2.1, (kn x).2.2.2.1⟩⟩
    rw [(kn x).2.1, h5 x]
    by_cases hxe : x = e
    · subst hxe; simp [hm]
    · simp [hxe]
  · have htf : (s.node e).triggered = false := by simpa using htr
    rw [if_neg (by rw [(kn e).2.1, htf]; decide)]
    have hnot : ¬ (e ∈ l.q ∧ l.dead e = false) := fun hh => htr ((h5 e).2 hh)
    cases hq : l.q with
    | nil =>
      rw [addToList_empty (by rw [k1, hq]; rfl)]
      simp only [ok_bind, pure_eq_ok]
      refine ⟨_, rfl, ?_⟩
      unfold Evs.settle
      rw [if_neg (by simp [Evs.set, kn e])]
      unfold Line.trigger
      simp only [hq, List.not_mem_nil, if_false, List.nil_append]
      refine ⟨by simp [Evs.set], by simp [Evs.set], by simp [Chain, Evs.set], by simp, fun x => ?_, fun x => ?_, fun x => ?_⟩
      · by_cases hxe : x = e
        · simp [hxe, Evs.set]
        · have := h5 x; rw [hq] at this; simpa [hxe, Evs.set, kn x] using this
      · by_cases hxe : x = e
        · simp [hxe, Evs.set, kn e]
        · simp [hxe, Evs.set, kn x]
      · by_cases hxe : x = e
        · subst hxe; simp [Evs.set, kn x]
        · simp [hxe, Evs.set, kn x]
    | cons a t =>
      obtain ⟨z, hz⟩ : ∃ z, l.q.getLast? = some z := by
        rw [hq]; exact ⟨_, List.getLast?_eq_some_getLast (by simp)⟩
      obtain ⟨s2, e1, e2, e3, e4, e5, e6, e7⟩ := addToList_cons (e := e) (a := a) (z := z) (by rw [k1, hq]; rfl) (by rw [k2 (by simp [hq]), hz])
      rw [e1]
      simp only [ok_bind, pure_eq_ok]
      refine ⟨_, rfl, ?_⟩
      have hzm : z ∈ l.q := List.mem_of_getLast? hz
      obtain ⟨s3, hs3⟩ : ∃ s3, s3 = (s2.set e { s2.node e with triggered := true }).settle e := ⟨_, rfl⟩
      rw [← hs3]
      have f1 : s3.first = some a ∧ s3.last = some e := by
        rw [hs3]; unfold Evs.settle; rw [if_neg (by simp [Evs.set, e7, kn e])]
        exact ⟨e2, e3⟩
      have fn : ∀ x, (s3.node x).anext = (s2.node x).anext ∧ (s3.node x).triggered = (if x = e then true else (s.node x).triggered) ∧
          (s3.node x).polled = true ∧ (s3.node x).detached = false ∧ (s3.node x).status = if x = e then st else l.status x := by
        intro x
        rw [hs3]; unfold Evs.settle; rw [if_neg (by simp [Evs.set, e7, kn e])]
        by_cases hxe : x = e
        · subst hxe; simp [Evs.set, e7, kn x]
        · simp [Evs.set, hxe, e7, kn x]
      clear hs3
      have ftrig : ∀ x, x ≠ e → ((s3.node x).triggered = true ↔ x ∈ l.q ∧ l.dead x = false) := fun x hxe => by
        rw [(fn x).2.1, if_neg hxe]; exact h5 x
      have fte : (s3.node e).triggered = true := by rw [(fn e).2.1, if_pos rfl]
      unfold Line.trigger
      simp only
      by_cases hm : e ∈ l.q
      · -- cancelled, and the last: the list does not change
        have hd : l.dead e = true := by
          cases hde : l.dead e
          · exact (hnot ⟨hm, hde⟩).elim
          · rfl
        have hze := hx hm hd
        rw [hz] at hze
        injection hze with hze
        subst hze
        simp only [hm, if_true]
        refine ⟨by rw [f1.1, hq]; rfl, fun _ => by rw [f1.2, hz], Chain.congr (fun x hxq => ?_) h3, h4, fun x => ?_, fun x => (fn x).2.2.2.2,
          fun x => ⟨(fn x).2.2.1, (fn x).2.2.2.1⟩⟩
        · rw [(fn x).1]
          by_cases hxz : x = z
          · subst hxz
            rw [e4, Chain.last hz h3]
          · rw [e6 x hxz hxz, (kn x).1]
        · by_cases hxz : x = z
          · subst hxz; simp [hm, fte]
          · simp only [hxz, if_false]; exact ftrig x hxz
      · have hze : z ≠ e := fun hh => hm (hh ▸ hzm)
        simp only [hm, if_false]
        refine ⟨?_, fun _ => ?_, ?_, ?_, fun x => ?_, fun x => (fn x).2.2.2.2, fun x => ⟨(fn x).2.2.1, (fn x).2.2.2.1⟩⟩
        · rw [f1.1, hq]; rfl
        · rw [f1.2]; simp
        · refine Chain.snoc (l := z) hz hm h4 (fun x hxq hxz => ?_) ?_ ?_ h3
          · have hxe : x ≠ e := fun hh => hm (hh ▸ hxq)
            rw [(fn x).1, e6 x hxe hxz, (kn x).1]
          · rw [(fn z).1, e5 hze]
          · rw [(fn e).1, e4]
        · exact List.Nodup.append h4 (by simp) (by simpa using fun h => hm h)
        · by_cases hxe : x = e
          · subst hxe; simp [fte]
          · simp only [hxe, if_false, List.mem_append, List.mem_singleton, or_false]; exact ftrig x hxe

theorem Rep.clear {s : Evs} {l : Line} (h : Rep s l) (e : Nat) : Rep (s.clear e) (l.clear e) := by
  obtain ⟨h1, h2, h3, h4, h5, h6, h7⟩ := h
  unfold Evs.clear Line.clear
  refine ⟨h1, h2, Chain.congr (fun x _ => ?_) h3, h4, fun x => ?_, fun x => ?_, fun x => ?_⟩ <;> simp only [Evs.set]
  · split
    · rename_i hh; rw [hh]
    · rfl
  · by_cases hxe : x = e
    · simp [hxe]
    · simp [hxe, h5 x]
  · by_cases hxe : x = e
    · subst hxe; simp [h6 x]
    · simp [hxe, h6 x]
  · by_cases hxe : x = e
    · subst hxe; simp [h7 x]
    · simp [hxe, h7 x]

/-- Taking the first off the list. -/
theorem Rep.pop {s : Evs} {l : Line} (h : Rep s l) {e : Nat} {t : List Nat} (hq : l.q = e :: t) :
    Rep ((s.removeFromList e).set e { (s.removeFromList e).node e with triggered := false }) { l with q := l.q.tail } := by
  obtain ⟨h1, h2, h3, h4, h5, h6, h7⟩ := h
  rw [hq] at h1 h2 h3 h4 h5
  obtain ⟨hnext, hchain⟩ := h3.tail
  have het : e ∉ t := (List.nodup_cons.1 h4).1
  have hn : ∀ x, ((s.removeFromList e).node x).anext = (s.node x).anext ∧ ((s.removeFromList e).node x).triggered = (s.node x).triggered ∧
      ((s.removeFromList e).node x).status = (s.node x).status ∧ ((s.removeFromList e).node x).polled = (s.node x).polled ∧
      ((s.removeFromList e).node x).detached = (s.node x).detached := by
    intro x
    unfold Evs.removeFromList
    by_cases c1 : s.first = some e <;> by_cases c2 : s.last = some e <;> simp only [c1, c2, if_true, if_false] <;>
      (split <;> simp only [Evs.set, and_self] <;> split <;> simp_all)
  have hfl : (s.removeFromList e).first = t.head? ∧ (t ≠ [] → (s.removeFromList e).last = t.getLast?) := by
    unfold Evs.removeFromList
    rw [h1]
    simp only [List.head?_cons, if_true]
    cases t with
    | nil =>
      simp only [List.head?_nil] at hnext
      constructor
      · split <;> split <;> simp_all [Evs.set]
      · intro h; exact (h rfl).elim
    | cons f t =>
      have hl : s.last = (f :: t).getLast? := by
        rw [h2 (by simp), List.getLast?_cons_cons]
      have hle : s.last ≠ some e := by
        rw [hl]
        intro hh
        exact het (List.mem_of_getLast? hh)
      simp only [hle, if_false, hnext, List.head?_cons]
      exact ⟨rfl, fun _ => by simp [Evs.set, hl]⟩
  rw [hq]
  simp only [List.tail_cons]
  refine ⟨?_, fun ht => ?_, Chain.congr (fun x hx => ?_) hchain, (List.nodup_cons.1 h4).2, fun x => ?_, fun x => ?_, fun x => ?_⟩
  · simp only [Evs.set]; exact hfl.1
  · simp only [Evs.set]; exact hfl.2 ht
  · have hxe : x ≠ e := fun hh => het (hh ▸ hx)
    simp only [Evs.set, hxe, if_false, hn]
  · by_cases hxe : x = e
    · subst hxe; simp [Evs.set, het]
    · simp only [Evs.set, hxe, if_false, hn, h5 x]
      simp [hxe]
  · by_cases hxe : x = e
    · subst hxe; simp [Evs.set, hn, h6 x]
    · simp only [Evs.set, hxe, if_false, hn, h6 x]
  · by_cases hxe : x = e
    · subst hxe; simp [Evs.set, hn, h7 x]
    · simp only [Evs.set, hxe, if_false, hn, h7 x]; simp

end TVP
