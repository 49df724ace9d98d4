import Verif.Spec.Anything
import Verif.Lemmas.Faulty
import Verif.Props.Cache
import Verif.Lemmas.Sim

/-!
# Reading from two sources that do not always give the same
-/

namespace TVP
open Spec

/-! ## Neither second head nor interpolation: samples that are related -/

section values

variable {σ τ : Type} {S : Src σ} {T : Src τ} {Q : σ → τ → Prop} {V : Int → Int → Prop}

/-- Whatever `S` serves in a state related to one of `T`, `T` serves something related to it, and the states stay related. -/
def SrcRel (S : Src σ) (T : Src τ) (Q : σ → τ → Prop) (V : Int → Int → Prop) : Prop :=
  ∀ s t i v s', Q s t → S.get s i = .ok (v, s') → ∃ w t', T.get t i = .ok (w, t') ∧ V v w ∧ Q s' t'

/-- One head, no interpolation. -/
def Bare (r : Rd) : Prop := r.dual = false ∧ r.interp = .none

/-- Values, if any, related; readers the same. -/
def Alongside (Q : σ → τ → Prop) (V : Int → Int → Prop) (x : Option Int × Rd × σ) (y : Option Int × Rd × τ) : Prop :=
  ((x.1 = none ∧ y.1 = none) ∨ ∃ v w, x.1 = some v ∧ y.1 = some w ∧ V v w) ∧ x.2.1 = y.2.1 ∧ Bare x.2.1 ∧ Q x.2.2 y.2.2

theorem srcVal_rel (hS : SrcRel S T Q V) {r : Rd} {s : σ} {t : τ} (h : Q s t) (pos off : Int) (ch : Nat) :
    Sim (fun x y => V x.1 y.1 ∧ Q x.2 y.2) (srcVal S r s pos off ch) (srcVal T r t pos off ch) := by
  unfold srcVal
  refine Sim.same fun p => Sim.same fun q => ?_
  rintro ⟨v, s'⟩ e
  obtain ⟨w, t', e1, e2, e3⟩ := hS s t q v s' h e
  exact ⟨(w, t'), e1, e2, e3⟩

theorem readNextValue_rel (hS : SrcRel S T Q V) {fp : Fp} {r : Rd} (hr : Bare r) {s : σ} {t : τ} (h : Q s t) (ch : Nat) :
    Sim (Alongside Q V) (readNextValue fp S r s ch) (readNextValue fp T r t ch) := by
  unfold readNextValue
  refine Sim.ite (fun _ => Sim.ok ⟨Or.inl ⟨rfl, rfl⟩, rfl, hr, h⟩) fun _ => ?_
  have hb : Sim (fun x y => V x.1 y.1 ∧ Q x.2 y.2) (baseVal fp S r s ch) (baseVal fp T r t ch) := by
    unfold baseVal
    rw [if_pos (by rw [hr.1]; rfl), if_pos (by rw [hr.1]; rfl)]
    exact srcVal_rel hS h _ _ _
  refine hb.bind ?_
  rintro ⟨v, s'⟩ ⟨w, t'⟩ ⟨e1, e2⟩
  rw [hr.2]
  exact Sim.ok ⟨Or.inr ⟨v, w, rfl, rfl, e1⟩, rfl, hr, e2⟩

theorem wrapAround_bare {r r' : Rd} (hr : Bare r) (h : wrapAround r = some r') : Bare r' := by
  unfold wrapAround at h
  simp only at h
  split at h
  · injection h with h; subst h; exact hr
  · injection h with h; subst h; exact hr
  · cases h

theorem readChan_rel (hS : SrcRel S T Q V) {fp : Fp} : ∀ (fuel : Nat) (r : Rd) {s : σ} {t : τ}, Bare r → Q s t → ∀ ch : Nat,
    Sim (Alongside Q V) (readChan fp S fuel r s ch) (readChan fp T fuel r t ch)
  | 0, r, s, t, _, _, ch => by intro a e; unfold readChan at e; cases e
  | fuel + 1, r, s, t, hr, h, ch => by
    unfold readChan
    refine (readNextValue_rel hS hr h ch).bind ?_
    rintro ⟨o, r1, s1⟩ ⟨o', r1', t1⟩ ⟨h1, h2, h3, h4⟩
    simp only at h1 h2 h3 h4
    subst h2
    rcases h1 with ⟨rfl, rfl⟩ | ⟨v, w, rfl, rfl, hv⟩
    · simp only
      cases hw : wrapAround r1 with
      | none => exact Sim.ok ⟨Or.inl ⟨rfl, rfl⟩, rfl, h3, h4⟩
      | some r2 => exact readChan_rel hS fuel r2 (wrapAround_bare h3 hw) h4 ch
    · exact Sim.ok ⟨Or.inr ⟨v, w, rfl, rfl, hv⟩, rfl, h3, h4⟩

theorem readFrame_rel (hS : SrcRel S T Q V) {fp : Fp} {fuel : Nat} : ∀ (left ch : Nat) (r : Rd) {s : σ} {t : τ}, Bare r → Q s t →
    Sim (fun x y => List.Forall₂ V x.1 y.1 ∧ x.2.1 = y.2.1 ∧ x.2.2.1 = y.2.2.1 ∧ Bare x.2.2.1 ∧ Q x.2.2.2 y.2.2.2) (readFrame fp S fuel left ch r s) (readFrame fp T fuel left ch r t)
  | 0, ch, r, s, t, hr, h => by unfold readFrame; exact Sim.ok ⟨.nil, rfl, rfl, hr, h⟩
  | left + 1, ch, r, s, t, hr, h => by
    unfold readFrame
    refine (readChan_rel hS fuel r hr h ch).bind ?_
    rintro ⟨o, r1, s1⟩ ⟨o', r1', t1⟩ ⟨h1, h2, h3, h4⟩
    simp only at h1 h2 h3 h4
    subst h2
    rcases h1 with ⟨rfl, rfl⟩ | ⟨v, w, rfl, rfl, hv⟩
    · exact Sim.ok ⟨.nil, rfl, rfl, h3, h4⟩
    · simp only
      refine (readFrame_rel hS left (ch + 1) r1 h3 h4).bind ?_
      rintro ⟨vs, ok, r2, s2⟩ ⟨vs', ok', r2', t2⟩ ⟨k1, k2, k3, k4, k5⟩
      exact Sim.ok ⟨.cons hv k1, k2, k3, k4, k5⟩

theorem stepOn_bare {fp : Fp} {r r' : Rd} (hr : Bare r) (h : stepOn fp r = .ok r') : Bare r' := by
  unfold stepOn at h
  obtain ⟨d, _, h⟩ := bind_ok_iff.1 h
  obtain ⟨st, _, h⟩ := bind_ok_iff.1 h
  obtain ⟨p1, _, h⟩ := bind_ok_iff.1 h
  split at h
  · obtain ⟨p2, _, h⟩ := bind_ok_iff.1 h
    cases h; exact hr
  · cases h; exact hr

theorem readLoop_rel (hS : SrcRel S T Q V) {fp : Fp} {fuel : Nat} : ∀ (n : Nat) (r : Rd) {s : σ} {t : τ}, Bare r → Q s t →
    Sim (fun x y => List.Forall₂ (List.Forall₂ V) x.frames y.frames ∧ x.r = y.r ∧ Bare x.r ∧ Q x.s y.s) (readLoop fp S fuel n r s) (readLoop fp T fuel n r t)
  | 0, r, s, t, hr, h => by unfold readLoop; exact Sim.ok ⟨.nil, rfl, hr, h⟩
  | n + 1, r, s, t, hr, h => by
    unfold readLoop
    simp only [hr.1, Bool.false_eq_true, if_false]
    refine Sim.bind (q := fun a b => a = r ∧ b = r) (Sim.ok ⟨rfl, rfl⟩) ?_
    rintro _ _ ⟨rfl, rfl⟩
    refine (readFrame_rel hS _ 0 _ hr h).bind ?_
    rintro ⟨vs, ok, r1, s1⟩ ⟨vs', ok', r1', t1⟩ ⟨h1, h2, h3, h4, h5⟩
    simp only at h1 h2 h3 h4 h5
    subst h2 h3
    simp only
    cases ok with
    | false => exact Sim.ok ⟨.nil, rfl, h4, h5⟩
    | true =>
      simp only [if_true]
      cases hr2 : stepOn fp r1 with
      | error e => intro a e; cases e
      | ok r2 =>
        simp only [ok_bind]
        refine (readLoop_rel hS n r2 (stepOn_bare h4 hr2) h5).bind ?_
        rintro x y ⟨k1, k2, k3, k4⟩
        exact Sim.ok ⟨.cons h1 k1, k2, k3, k4⟩

theorem read_rel (hS : SrcRel S T Q V) {fp : Fp} {fuel n : Nat} {r : Rd} {s : σ} {t : τ} (hr : Bare r) (h : Q s t) :
    Sim (fun x y => List.Forall₂ (List.Forall₂ V) x.frames y.frames ∧ x.r = y.r ∧ Bare x.r ∧ Q x.s y.s) (r.read fp S fuel s n) (r.read fp T fuel t n) := by
  unfold Rd.read
  refine Sim.ite (fun _ => Sim.ok ⟨.nil, rfl, hr, h⟩) fun _ => Sim.ite (fun _ => ?_) fun _ => Sim.ite (fun _ => Sim.ite (fun _ => Sim.ok ⟨.nil, rfl, hr, h⟩) fun _ => ?_) fun _ => readLoop_rel hS n r hr h
  · intro a e; cases e
  · intro a e; cases e

end values

/-! ## A file and its samples in memory -/

variable {m : List Nat} {g : Geo} {fp : Fp}

/-- Silent or right. -/
def Gap (v w : Int) : Prop := w = v ∨ w = 0

/-- The whole file, and a cache that holds what is in the file. -/
def HoldsSome (m : List Nat) (g : Geo) (s : Option (List Int)) (t : Option Cache) : Prop :=
  s = some (samplesOf m) ∧ ∃ c, t = some c ∧ CacheOk m g c

theorem fileSrc_rel (hb : IsBytes m) (hm : m.length < 4294967296) (nullOk : Bool) : SrcRel arraySrc (fileSrc g nullOk) (HoldsSome m g) Gap := by
  rintro _ _ i v s' ⟨rfl, c, rfl, hc⟩ h
  simp only [arraySrc] at h
  by_cases h0 : 0 ≤ i
  · rw [if_pos h0] at h
    cases hv : (samplesOf m)[i.toNat]? with
    | none => rw [hv] at h; cases h
    | some x =>
      rw [hv] at h
      cases h
      obtain ⟨hlt, hx⟩ := List.getElem?_eq_some_iff.1 hv
      have hlen : (samplesOf m).length = m.length / 2 := by unfold samplesOf; simp
      have hin : InFile m i := ⟨h0, by omega⟩
      have hval : v = fileSample m i.toNat := by
        have hs : (samplesOf m)[i.toNat]? = some (fileSample m i.toNat) := by
          unfold samplesOf; rw [List.getElem?_map, List.getElem?_range (by omega)]; rfl
        rw [hs] at hv; injection hv with hv; exact hv.symm
      refine ⟨(c.get g i).1, some (c.get g i).2, rfl, ?_, rfl, _, rfl, hc.get i⟩
      obtain ⟨k1, k2⟩ := hc.serves hb hm hin
      by_cases hbuf : Buffered g c i
      · exact Or.inl (by rw [hval]; exact (k1 hbuf).1)
      · exact Or.inr (k2 hbuf).1
  · rw [if_neg h0] at h; cases h

theorem blockOf_gap {fs fs' : List (List Int)} (h : List.Forall₂ (List.Forall₂ Gap) fs fs') (ch : Nat) :
    List.Forall₂ (fun s s' : Int => s = s' ∨ s = 0) (blockOf fs' ch) (blockOf fs ch) := by
  unfold blockOf
  rw [h.length_eq]
  refine List.rel_append ?_ (forall₂_self (R := fun s s' : Int => s = s' ∨ s = 0) (fun _ => Or.inl rfl) _)
  induction h with
  | nil => exact .nil
  | cons h1 _ ih =>
    refine .cons ?_ ih
    clear ih
    induction h1 generalizing ch with
    | nil => exact Or.inl rfl
    | cons hv _ ih =>
      cases ch with
      | zero => exact hv
      | succ ch => exact ih ch

theorem update_rel {ρ ρ' : Type} {Q : ρ → ρ' → Prop} {nch : Int} {playing : Bool} {rd : M (List (List Int) × ρ)} {rd' : M (List (List Int) × ρ')} {st : ρ} {st' : ρ'}
    (h : playing = true → Sim (fun x y => List.Forall₂ (List.Forall₂ Gap) x.1 y.1 ∧ Q x.2 y.2) rd rd') (hq : Q st st') (alloc : Nat → Bool) :
    Sim (fun x y => WithGaps y.1 x.1 ∧ Q x.2 y.2) (update nch playing rd st alloc) (update nch playing rd' st' alloc) := by
  unfold update
  refine Sim.ite (fun _ => Sim.ok ⟨WithGaps.refl _, hq⟩) fun _ => ?_
  by_cases hneg : nch < 0
  · simp only [if_pos hneg]; intro a e; cases e
  · simp only [if_neg hneg]
    cases playing with
    | false => exact Sim.ok (q := fun x y => WithGaps y.1 x.1 ∧ Q x.2 y.2) (a := ({}, st)) (b := ({}, st')) ⟨WithGaps.refl _, hq⟩
    | true =>
    change Sim (fun (x : Fx × ρ) (y : Fx × ρ') => WithGaps y.1 x.1 ∧ Q x.2 y.2)
      (if ((List.range nch.toNat).filter alloc).length = _ then _ else _) (if ((List.range nch.toNat).filter alloc).length = _ then _ else _)
    refine Sim.ite (fun _ => ?_) fun _ => by exact Sim.ok ⟨WithGaps.refl _, hq⟩
    refine (h rfl).bind ?_
    rintro ⟨fs, s⟩ ⟨fs', s'⟩ ⟨h1, h2⟩
    refine Sim.ok ⟨⟨rfl, rfl, by simp only [h1.length_eq], ?_⟩, h2⟩
    simp only
    have hall : List.Forall₂ (fun t t' : List Int × Nat => t.2 = t'.2 ∧ List.Forall₂ (fun s s' : Int => s = s' ∨ s = 0) t.1 t'.1)
        ((List.range nch.toNat).map fun ch => (blockOf fs' ch, ch)) ((List.range nch.toNat).map fun ch => (blockOf fs ch, ch)) :=
      forall₂_map_of fun ch _ => ⟨rfl, blockOf_gap h1 ch⟩
    split
    · exact List.rel_append hall (.cons ⟨rfl, blockOf_gap h1 0⟩ .nil)
    · exact hall

/-- A file player and one with the file in memory, in the same state. -/
structure Follows (m : List Nat) (g : Geo) (p : FilePlayer) (b : MemPlayer) : Prop where
  rd : p.rdr.rd = b.rdr.rd
  src : b.rdr.src = some (samplesOf m)
  pend : p.pending = b.pending
  bare : Bare b.rdr.rd
  held : ∀ c, p.rdr.src = some c → CacheOk m g c
  live : b.rdr.rd.playing = true → ∃ c, p.rdr.src = some c

/-- The readers of such players. -/
def SameReader (m : List Nat) (g : Geo) (a : ArrayReader) (f : FileReader) : Prop :=
  f.rd = a.rd ∧ a.src = some (samplesOf m) ∧ Bare a.rd ∧ (∀ c, f.src = some c → CacheOk m g c) ∧ (a.rd.playing = true → ∃ c, f.src = some c)

theorem reader_update_rel (hb : IsBytes m) (hm : m.length < 4294967296) (nullOk : Bool) {a : ArrayReader} {f : FileReader} (h : SameReader m g a f) (fuel : Nat) (alloc : Nat → Bool) :
    Sim (fun x y => WithGaps y.1 x.1 ∧ SameReader m g x.2 y.2) (a.update fp fuel alloc) (f.update fp g nullOk fuel alloc) := by
  obtain ⟨r, src⟩ := a
  obtain ⟨r', src'⟩ := f
  obtain ⟨h1, h2, h3, h4, h5⟩ := id h
  simp only at h1 h2 h3 h4 h5
  subst h1 h2
  unfold ArrayReader.update FileReader.update
  refine update_rel (fun hp => ?_) h alloc
  obtain ⟨c, rfl⟩ := h5 hp
  unfold ArrayReader.read FileReader.read
  refine (read_rel (fileSrc_rel hb hm nullOk) h3 ⟨rfl, c, rfl, h4 c rfl⟩).bind ?_
  rintro x y ⟨k1, k2, k3, k4, c', k5, k6⟩
  exact Sim.ok ⟨k1, k2.symm, k4, k3, fun c hc => by rw [k5] at hc; injection hc with hc; rw [← hc]; exact k6, fun _ => ⟨c', k5⟩⟩

theorem Follows.reader {p : FilePlayer} {b : MemPlayer} (h : Follows m g p b) : SameReader m g b.rdr p.rdr := ⟨h.rd, h.src, h.bare, h.held, h.live⟩
theorem SameReader.follows {a : ArrayReader} {f : FileReader} (h : SameReader m g a f) {p q : Option Ev} (hp : p = q) (n : Nat) : Follows m g ⟨f, p⟩ ⟨a, q, n⟩ :=
  ⟨h.1, h.2.1, hp, h.2.2.1, h.2.2.2.1, h.2.2.2.2⟩

theorem Follows.update (hb : IsBytes m) (hm : m.length < 4294967296) (nullOk : Bool) {p : FilePlayer} {b : MemPlayer} (h : Follows m g p b) (fuel : Nat) (alloc : Nat → Bool) :
    Sim (fun x y => WithGaps y.1 x.1 ∧ Follows m g y.2 x.2) (b.update fp fuel alloc) (p.update fp g nullOk fuel alloc) := by
  unfold MemPlayer.update FilePlayer.update
  refine (reader_update_rel hb hm nullOk h.reader fuel alloc).bind ?_
  rintro ⟨fx', a'⟩ ⟨fx, f'⟩ ⟨k1, k2⟩
  simp only at k1 k2 ⊢
  rw [k1.2.2.1]
  cases fx'.event with
  | none => exact Sim.ok ⟨k1, k2.follows h.pend _⟩
  | some e => exact Sim.ok ⟨k1, k2.follows rfl _⟩

theorem Rd.set_playing (r : Rd) (s : Setting) : (r.set s).playing = true → r.playing = true := by
  cases s with
  | speed v => simp only [Rd.set]; rw [(setPlaybackRate_keeps r v).1]; exact id
  | stop => simp only [Rd.set, Rd.stop]; intro h; cases h
  | stopPolled => simp only [Rd.set, Rd.stop]; intro h; cases h
  | _ => exact id

theorem setPlaybackRate_bare {r : Rd} (h : Bare r) (v : ℚ) : Bare (r.setPlaybackRate v) := by
  unfold Rd.setPlaybackRate
  simp only
  repeat' split
  all_goals exact h

theorem Rd.set_bare {r : Rd} (h : Bare r) {s : Setting} (h1 : s ≠ .dual true) (h2 : s ≠ .interpolation true) : Bare (r.set s) := by
  cases s with
  | speed v => exact setPlaybackRate_bare h v
  | dual b => cases b with
    | true => exact absurd rfl h1
    | false => exact ⟨rfl, h.2⟩
  | interpolation b => cases b with
    | true => exact absurd rfl h2
    | false => exact ⟨h.1, rfl⟩
  | _ => exact h

theorem FilePlayer.set_rd (g : Geo) (p : FilePlayer) (s : Setting) : (p.set g s).rdr.rd = p.rdr.rd.set s := by cases s <;> rfl

theorem FilePlayer.set_src (g : Geo) (p : FilePlayer) (s : Setting) :
    (∀ c', (p.set g s).rdr.src = some c' → ∃ c, p.rdr.src = some c ∧ c'.dev = c.dev ∧ c'.bufs = c.bufs) ∧ ((∃ c, p.rdr.src = some c) → ∃ c, (p.set g s).rdr.src = some c) := by
  obtain ⟨⟨r, src⟩, pend⟩ := p
  cases s <;> cases src <;> simp [FilePlayer.set, FileReader.setLoopType, FileReader.setLoopStart, FileReader.setLoopFinish, FilePlayer.stop, FilePlayer.stopPolled, Cache.setLoopType, Cache.setLoopStart, Cache.setLoopFinish]

theorem Follows.set {p : FilePlayer} {b : MemPlayer} (h : Follows m g p b) {s : Setting} (h1 : s ≠ .dual true) (h2 : s ≠ .interpolation true) : Follows m g (p.set g s) (b.set s) := by
  obtain ⟨k1, k2⟩ := p.set_src g s
  refine ⟨by rw [p.set_rd, h.rd]; rfl, h.src, ?_, Rd.set_bare h.bare h1 h2, fun c' hc' => ?_, fun hp => k2 (h.live (Rd.set_playing _ s hp))⟩
  · cases s <;> first | exact h.pend | rfl
  · obtain ⟨c, e1, e2, e3⟩ := k1 c' hc'
    have := h.held c e1
    exact ⟨by rw [e2]; exact this.dev, by rw [e3]; exact this.bufs⟩

theorem Follows.poll (hm : m.length < 4294967296) {p : FilePlayer} {b : MemPlayer} (h : Follows m g p b) (fuel : Nat) {rs : List ReadResult} (hrs : AllOrNothing rs)
    {p' : FilePlayer} {rs' : List ReadResult} (e : p.runEventF fp g fuel rs = .ok (p', rs')) : AllOrNothing rs' ∧ Follows m g p' b.runEvent := by
  obtain ⟨⟨r, src⟩, pend⟩ := p
  obtain ⟨⟨r2, src2⟩, pend2, served⟩ := b
  obtain ⟨h1, h2, h3, h4, h5, h6⟩ := id h
  simp only at h1 h2 h3 h4 h5 h6
  subst h1 h2 h3
  unfold FilePlayer.runEventF at e
  unfold MemPlayer.runEvent
  match pend with
  | none => cases e; exact ⟨hrs, h⟩
  | some .close =>
    cases e
    exact ⟨hrs, rfl, rfl, rfl, h4, fun c hc => (nomatch hc), fun hp => (nomatch hp)⟩
  | some .reload =>
    simp only [FileReader.serviceF] at e
    cases src with
    | none => cases e; exact ⟨hrs, rfl, rfl, rfl, h4, h5, h6⟩
    | some c =>
      simp only at e
      obtain ⟨x, hx, e⟩ := bind_ok_iff.1 e
      obtain ⟨y, hy, hx⟩ := bind_ok_iff.1 hx
      cases hx
      cases e
      obtain ⟨k1, k2⟩ := triggerReloadF_ok hm (h5 c rfl) hrs hy
      exact ⟨k2, rfl, rfl, rfl, h4, fun c' hc' => by injection hc' with hc'; rw [← hc']; exact k1, fun _ => ⟨_, rfl⟩⟩

/-! ## How running an event can fail -/

theorem lastSlot_fails {g : Geo} {bs : List Buf} {e : Fault} (h : lastSlot g bs = .error e) : e = .outOfBounds := by
  unfold lastSlot at h
  split at h
  · cases h
  · injection h with h; exact h.symm

theorem reloadDecide_fails {c : Cache} {rate : ℚ} {b : Buf} {e : Fault} (h : reloadDecide g c rate b = .error e) : e = .outOfBounds := by
  unfold reloadDecide at h
  simp only at h
  cases hl : lastSlot g c.bufs with
  | error f =>
    have hf := lastSlot_fails hl
    rw [hl] at h
    simp only [error_bind] at h
    repeat' split at h
    all_goals first
      | (injection h with h; rw [← h]; exact hf)
      | cases h
  | ok x =>
    rw [hl] at h
    simp only [ok_bind] at h
    repeat' split at h
    all_goals cases h

theorem reloadLoopF_fails {rate : ℚ} {e : Fault} : ∀ (fuel : Nat) (c : Cache) (rs : List ReadResult), reloadLoopF g rate fuel c rs = .error e → e = .hang ∨ e = .outOfBounds := by
  intro fuel
  induction fuel with
  | zero =>
    intro c rs h
    unfold reloadLoopF at h
    split at h
    · cases h
    · split at h
      · injection h with h; exact Or.inl h.symm
      · cases h
  | succ fuel ih =>
    intro c rs h
    unfold reloadLoopF at h
    split at h
    · cases h
    · rename_i b rest hc
      split at h
      · cases hd : reloadDecide g c rate b with
        | error f =>
          rw [hd] at h
          injection h with h
          rw [← h]
          exact Or.inr (reloadDecide_fails hd)
        | ok x =>
          rw [hd] at h
          simp only [ok_bind] at h
          split at h
          · cases h
          · exact ih _ _ h
      · cases h

theorem runEventF_fails {p : FilePlayer} {fuel : Nat} {rs : List ReadResult} {e : Fault} (h : p.runEventF fp g fuel rs = .error e) : e = .hang ∨ e = .outOfBounds := by
  obtain ⟨⟨r, src⟩, pend⟩ := p
  unfold FilePlayer.runEventF at h
  match pend with
  | none => cases h
  | some .close => cases h
  | some .reload =>
    cases src with
    | none => cases h
    | some c =>
      simp only [FileReader.serviceF, Cache.triggerReloadF] at h
      cases hl : reloadLoopF g (reloadRate c (fp.f.rnd r.rate)) fuel c rs with
      | error f =>
        rw [hl] at h
        injection h with h
        rw [← h]
        exact reloadLoopF_fails _ _ _ hl
      | ok x =>
        rw [hl] at h
        cases h

theorem Follows.calls (hb : IsBytes m) (hm : m.length < 4294967296) (nullOk : Bool) {fuel : Nat} : ∀ (ts : List Call) (p : FilePlayer) (b : MemPlayer) (rs : List ReadResult),
    PlainCalls ts → AllOrNothing rs → Follows m g p b → ∀ {fxs' : List Fx} {b' : MemPlayer}, memCalls fp fuel b ts = .ok (fxs', b') →
    (∃ fxs p' rs', fileCalls fp g nullOk fuel p rs ts = .ok (fxs, p', rs') ∧ List.Forall₂ WithGaps fxs fxs' ∧ Follows m g p' b') ∨ EventFails fp g nullOk fuel p rs ts fxs'
  | [], p, b, rs, _, _, h, fxs', b', e => by
    cases e
    exact Or.inl ⟨[], p, rs, rfl, .nil, h⟩
  | .update al :: ts, p, b, rs, hv, hrs, h, fxs', b', e => by
    rw [memCalls] at e
    obtain ⟨⟨fx', b1⟩, e1, e⟩ := bind_ok_iff.1 e
    obtain ⟨⟨fxs1, b2⟩, e2, e⟩ := bind_ok_iff.1 e
    cases e
    obtain ⟨⟨fx, p1⟩, k1, k2, k3⟩ := h.update (fp := fp) hb hm nullOk fuel al _ e1
    simp only at k2 k3 e2
    rcases Follows.calls hb hm nullOk ts p1 b1 rs ⟨fun hh => hv.1 (List.mem_cons_of_mem _ hh), fun hh => hv.2 (List.mem_cons_of_mem _ hh)⟩ hrs k3 e2 with
      ⟨fxs, p2, rs2, j1, j2, j3⟩ | ⟨ts1, ts2, fxs, p2, rs1, f, j1, j2, j3, j4, pre, j5, j6⟩
    · refine Or.inl ⟨fx :: fxs, p2, rs2, ?_, .cons k2 j2, j3⟩
      rw [fileCalls]; simp only [k1, ok_bind, j1]; rfl
    · refine Or.inr ⟨.update al :: ts1, ts2, fx :: fxs, p2, rs1, f, by rw [j1]; rfl, ?_, j3, j4, fx' :: pre, List.cons_prefix_cons.2 ⟨rfl, j5⟩, .cons k2 j6⟩
      rw [fileCalls]; simp only [k1, ok_bind, j2]; rfl
  | .poll :: ts, p, b, rs, hv, hrs, h, fxs', b', e => by
    rw [memCalls] at e
    cases hp : p.runEventF fp g fuel rs with
    | error f => exact Or.inr ⟨[], ts, [], p, rs, f, rfl, rfl, hp, runEventF_fails hp, [], List.nil_prefix, .nil⟩
    | ok x =>
      obtain ⟨p1, rs1⟩ := x
      obtain ⟨k1, k2⟩ := h.poll hm fuel hrs hp
      rcases Follows.calls hb hm nullOk ts p1 _ rs1 ⟨fun hh => hv.1 (List.mem_cons_of_mem _ hh), fun hh => hv.2 (List.mem_cons_of_mem _ hh)⟩ k1 k2 e with
        ⟨fxs, p2, rs2, j1, j2, j3⟩ | ⟨ts1, ts2, fxs, p2, rs2, f, j1, j2, j3⟩
      · exact Or.inl ⟨fxs, p2, rs2, by rw [fileCalls, hp]; exact j1, j2, j3⟩
      · exact Or.inr ⟨.poll :: ts1, ts2, fxs, p2, rs2, f, by rw [j1]; rfl, by rw [fileCalls, hp]; exact j2, j3⟩
  | .set s :: ts, p, b, rs, hv, hrs, h, fxs', b', e => by
    rw [memCalls] at e
    have h1 : s ≠ .dual true := fun hh => hv.1 (by rw [hh]; exact List.mem_cons_self)
    have h2 : s ≠ .interpolation true := fun hh => hv.2 (by rw [hh]; exact List.mem_cons_self)
    rcases Follows.calls hb hm nullOk ts (p.set g s) (b.set s) rs ⟨fun hh => hv.1 (List.mem_cons_of_mem _ hh), fun hh => hv.2 (List.mem_cons_of_mem _ hh)⟩ hrs (h.set h1 h2) e with
      ⟨fxs, p2, rs2, j1, j2, j3⟩ | ⟨ts1, ts2, fxs, p2, rs2, f, j1, j2, j3⟩
    · exact Or.inl ⟨fxs, p2, rs2, by rw [fileCalls]; exact j1, j2, j3⟩
    · exact Or.inr ⟨.set s :: ts1, ts2, fxs, p2, rs2, f, by rw [j1]; rfl, by rw [fileCalls]; exact j2, j3⟩

/-! ## Opening a file -/

theorem Rd.reset_pos1_in (r : Rd) : InI32 r.reset.pos1 := by
  unfold Rd.reset
  simp only
  repeat' split
  all_goals exact i32_in _

theorem playParseWav_keeps {r r' : Rd} {f f' : Dev} {junk : List Nat} {ok : Bool} (h : playParseWav r f junk = .ok (ok, r', f')) :
    r'.dual = r.dual ∧ r'.interp = r.interp ∧ f'.bytes = f.bytes := by
  have hn : ∀ n, (r.setNumChannels n).dual = r.dual ∧ (r.setNumChannels n).interp = r.interp := fun n => by unfold Rd.setNumChannels; split <;> exact ⟨rfl, rfl⟩
  have hs : ∀ (d : Dev) n, (d.read n).2.bytes = d.bytes := fun d n => rfl
  unfold playParseWav at h
  obtain ⟨⟨ok1, hdr⟩, _, h⟩ := bind_ok_iff.1 h
  simp only at h
  split at h
  · simp only [pure_eq_ok, Except.ok.injEq, Prod.mk.injEq] at h; rw [← h.2.1, ← h.2.2]; exact ⟨rfl, rfl, rfl⟩
  · obtain ⟨t, _, h⟩ := bind_ok_iff.1 h
    cases t with
    | none =>
      simp only [pure_eq_ok, Except.ok.injEq, Prod.mk.injEq] at h; rw [← h.2.1, ← h.2.2]
      exact ⟨(hn _).1, (hn _).2, rfl⟩
    | some t =>
      simp only at h
      obtain ⟨⟨ok2, dh⟩, _, h⟩ := bind_ok_iff.1 h
      simp only at h
      split at h
      · simp only [pure_eq_ok, Except.ok.injEq, Prod.mk.injEq] at h; rw [← h.2.1, ← h.2.2]
        exact ⟨(hn _).1, (hn _).2, by rw [hs, Dev.seek_bytes]; rfl⟩
      · simp only [pure_eq_ok, Except.ok.injEq, Prod.mk.injEq] at h; rw [← h.2.1, ← h.2.2]
        exact ⟨(hn _).1, (hn _).2, by rw [hs, Dev.seek_bytes]; rfl⟩

theorem playFinishF_keeps (hm : m.length < 4294967296) {r : Rd} {f : Dev} {rs rs' : List ReadResult} {a : FileReader} (hf : f.bytes = m) (hrs : AllOrNothing rs)
    (h : playFinishF g r f rs = .ok (true, a, rs')) : (∃ c, a.src = some c ∧ CacheOk m g c) ∧ AllOrNothing rs' ∧ a.rd.dual = r.dual ∧ a.rd.interp = r.interp := by
  unfold playFinishF at h
  split at h
  · cases h
  · split at h
    · cases h
    · simp only [FileReader.setLoopType, FileReader.setLoopStart, FileReader.setLoopFinish, Option.map_some, pure_eq_ok, Except.ok.injEq, Prod.mk.injEq, true_and] at h
      obtain ⟨h1, h2⟩ := h
      have key := preLoadLoopF_ok (m := m) (g := g) hm
      rw [← h1, ← h2]
      simp only
      refine ⟨⟨_, rfl, ?_⟩, ?_, ?_⟩
      · refine (key _ _ _ _ _ _ _ ?_ ?_ hrs).1
        · exact ⟨hf, fun b hb => (nomatch hb)⟩
        · exact Rd.reset_pos1_in _
      · refine (key _ _ _ _ _ _ _ ?_ ?_ hrs).2
        · exact ⟨hf, fun b hb => (nomatch hb)⟩
        · exact Rd.reset_pos1_in _
      · unfold Rd.reset Rd.setLoopFinish Rd.setLoopStart Rd.setLoopType
        simp only
        split <;> exact ⟨rfl, rfl⟩

theorem playFileF_keeps (hm : m.length < 4294967296) {a a' : FileReader} {f : Dev} {junk : List Nat} {w : Bool} {n : Int} {rs rs' : List ReadResult} (hf : f.bytes = m) (hrs : AllOrNothing rs)
    (h : a.playFileF g (some f) junk w n rs = .ok (true, a', rs')) : (∃ c, a'.src = some c ∧ CacheOk m g c) ∧ AllOrNothing rs' ∧ a'.rd.dual = a.rd.dual ∧ a'.rd.interp = a.rd.interp := by
  unfold FileReader.playFileF at h
  cases w with
  | true =>
    simp only [if_true] at h
    obtain ⟨⟨ok, r, f'⟩, h1, h⟩ := bind_ok_iff.1 h
    simp only at h
    obtain ⟨k1, k2, k3⟩ := playParseWav_keeps h1
    cases ok with
    | false => cases h
    | true =>
      obtain ⟨j1, j2, j3, j4⟩ := playFinishF_keeps hm (by rw [k3]; exact hf) hrs h
      exact ⟨j1, j2, j3.trans k1, j4.trans k2⟩
  | false =>
    obtain ⟨j1, j2, j3, j4⟩ := playFinishF_keeps hm hf hrs h
    have hn : ∀ n, (a.close.rd.setNumChannels n).dual = a.rd.dual ∧ (a.close.rd.setNumChannels n).interp = a.rd.interp := fun n => by unfold Rd.setNumChannels; split <;> exact ⟨rfl, rfl⟩
    exact ⟨j1, j2, j3.trans (hn n).1, j4.trans (hn n).2⟩

theorem opened_keeps (hm : m.length < 4294967296) {a a' : FileReader} {rs rs' : List ReadResult} (hrs : AllOrNothing rs)
    (h : OpenedWith g a m rs a' rs') : (∃ c, a'.src = some c ∧ CacheOk m g c) ∧ AllOrNothing rs' ∧ a'.rd.dual = a.rd.dual ∧ a'.rd.interp = a.rd.interp := by
  rcases h with ⟨past, n, h⟩ | ⟨past, junk, h⟩
  · exact playFileF_keeps hm rfl hrs h
  · exact playFileF_keeps hm rfl hrs h

end TVP
