import Verif.Lemmas.Anything

/-!
# The samples do not tell the reader where to go
-/

namespace TVP
open Spec

section
variable {σ τ : Type}

/-- If both succeed the results are related. -/
def Agree {α β : Type} (q : α → β → Prop) (x : M α) (y : M β) : Prop := ∀ a b, x = .ok a → y = .ok b → q a b

theorem Agree.ok {α β : Type} {q : α → β → Prop} {a : α} {b : β} (h : q a b) : Agree q (.ok a) (.ok b) := by
  intro a' b' e e'; cases e; cases e'; exact h

theorem Agree.bind {α β γ δ : Type} {q : α → β → Prop} {q' : γ → δ → Prop} {x : M α} {y : M β} {k : α → M γ} {l : β → M δ}
    (h : Agree q x y) (hk : ∀ a b, q a b → Agree q' (k a) (l b)) : Agree q' (x >>= k) (y >>= l) := by
  intro c d hc hd
  obtain ⟨a, ha, hc⟩ := bind_ok_iff.1 hc
  obtain ⟨b, hb, hd⟩ := bind_ok_iff.1 hd
  exact hk a b (h a b ha hb) c d hc hd

/-- Nothing is needed about the results of the first steps. -/
theorem Agree.skip {α β γ δ : Type} {q' : γ → δ → Prop} {x : M α} {y : M β} {k : α → M γ} {l : β → M δ}
    (hk : ∀ a b, Agree q' (k a) (l b)) : Agree q' (x >>= k) (y >>= l) :=
  Agree.bind (q := fun _ _ => True) (fun _ _ _ _ => trivial) fun a b _ => hk a b

theorem Agree.same {α γ δ : Type} {q' : γ → δ → Prop} {x : M α} {k : α → M γ} {l : α → M δ}
    (hk : ∀ a, x = .ok a → Agree q' (k a) (l a)) : Agree q' (x >>= k) (x >>= l) := by
  intro c d hc hd
  obtain ⟨a, ha, hc⟩ := bind_ok_iff.1 hc
  obtain ⟨b, hb, hd⟩ := bind_ok_iff.1 hd
  rw [ha] at hb; cases hb
  exact hk a ha c d hc hd

theorem Agree.ite {α β : Type} {q : α → β → Prop} {p : Prop} [Decidable p] {x x' : M α} {y y' : M β}
    (h : p → Agree q x y) (h' : ¬ p → Agree q x' y') : Agree q (if p then x else x') (if p then y else y') := by
  by_cases hp : p
  · rw [if_pos hp, if_pos hp]; exact h hp
  · rw [if_neg hp, if_neg hp]; exact h' hp

theorem Agree.error {α β : Type} {q : α → β → Prop} {e : Fault} {y : M β} : Agree q (.error e : M α) y := by intro a b h; cases h
theorem Agree.error' {α β : Type} {q : α → β → Prop} {e : Fault} {x : M α} : Agree q x (.error e : M β) := by intro a b _ h; cases h

/-- The same up to the samples remembered. -/
def Apart (r r' : Rd) : Prop := ∃ p : Nat → Pts, r' = { r with pts := p } ∧ ∀ c, (p c).n = (r.pts c).n

theorem Apart.refl (r : Rd) : Apart r r := ⟨r.pts, rfl, fun _ => rfl⟩

theorem Apart.place {r r' : Rd} (h : Apart r r') : SamePlace r r' := by
  obtain ⟨p, rfl, _⟩ := h; rfl

theorem addPoint_apart {r r' : Rd} (h : Apart r r') (ch : Nat) (y y' : Int) : Agree Apart (addPoint r ch y) (addPoint r' ch y') := by
  obtain ⟨p, rfl, hp⟩ := h
  unfold addPoint
  simp only
  cases hi : r.interp with
  | none => exact Agree.ok ⟨p, by rw [← hi], hp⟩
  | linear =>
    refine Agree.ite (fun _ => Agree.ok ⟨_, rfl, fun c => ?_⟩) fun _ => Agree.error
    simp only [Function.update_apply]
    split
    · simp only [hp]
    · exact hp c
  | quadratic =>
    refine Agree.ite (fun _ => Agree.ok ⟨_, rfl, fun c => ?_⟩) fun _ => Agree.error
    simp only [Function.update_apply]
    split
    · simp only [hp]
    · exact hp c

theorem ptsOf_apart {r r' : Rd} (h : Apart r r') (ch : Nat) : Agree (fun p q : Pts => p.n = q.n) (ptsOf r ch) (ptsOf r' ch) := by
  obtain ⟨p, rfl, hp⟩ := h
  unfold ptsOf
  exact Agree.ite (fun _ => Agree.ok (hp ch).symm) fun _ => Agree.error

theorem update_apart {r r' : Rd} (h : Apart r r') {p q : Pts} (hn : p.n = q.n) (ch : Nat) (y y' : Int) :
    Apart { r with pts := Function.update r.pts ch { p with y1 := y } } { r' with pts := Function.update r'.pts ch { q with y1 := y' } } := by
  obtain ⟨p', rfl, hp⟩ := h
  refine ⟨_, rfl, fun c => ?_⟩
  simp only [Function.update_apply]
  split
  · exact hn.symm
  · exact hp c

variable {S : Src σ} {T : Src τ} {fp : Fp}

theorem linearVal_apart {r r' : Rd} (h : Apart r r') (s : σ) (t : τ) (ch : Nat) (v v' : Int) :
    Agree (fun x y => Apart x.2.1 y.2.1) (linearVal fp S r s ch v) (linearVal fp T r' t ch v') := by
  obtain ⟨p, rfl, hp⟩ := id h
  unfold linearVal
  simp only
  refine Agree.ite (fun _ => ?_) fun _ => (addPoint_apart h ch v v').bind fun r1 r1' h1 => Agree.skip fun _ _ => Agree.ok h1
  refine Agree.bind (q := fun (x : Rd × σ) (y : Rd × τ) => Apart x.1 y.1) ?_ ?_
  · refine Agree.ite (fun _ => ?_) fun _ => Agree.ite (fun _ => ?_) fun _ => Agree.ok h
    · refine Agree.ite (fun _ => ?_) fun _ => Agree.ok h
      refine (ptsOf_apart h ch).bind ?_
      rintro ⟨n, a0, a1, a2, a3⟩ ⟨n', b0, b1, b2, b3⟩ hq
      simp only at hq
      subst hq
      refine Agree.ite (fun _ => ?_) fun _ => (addPoint_apart h ch v v').bind fun _ _ h1 => Agree.ok h1
      refine Agree.skip fun x y => ?_
      exact (addPoint_apart (update_apart h (p := ⟨n, a0, a1, a2, a3⟩) (q := ⟨n, b0, b1, b2, b3⟩) rfl ch _ _) ch v v').bind fun _ _ h1 => Agree.ok h1
    · refine Agree.ite (fun _ => ?_) fun _ => Agree.ok h
      refine (ptsOf_apart h ch).bind ?_
      rintro ⟨n, a0, a1, a2, a3⟩ ⟨n', b0, b1, b2, b3⟩ hq
      simp only at hq
      subst hq
      refine Agree.ite (fun _ => ?_) fun _ => (addPoint_apart h ch v v').bind fun _ _ h1 => Agree.ok h1
      refine Agree.skip fun x y => ?_
      exact (addPoint_apart (update_apart h (p := ⟨n, a0, a1, a2, a3⟩) (q := ⟨n, b0, b1, b2, b3⟩) rfl ch _ _) ch v v').bind fun _ _ h1 => Agree.ok h1
  · rintro ⟨r1, s1⟩ ⟨r1', t1⟩ h1
    simp only at h1
    refine (ptsOf_apart h1 ch).bind fun q q' hq => ?_
    simp only [hq]
    exact Agree.ite (fun _ => Agree.skip fun _ _ => Agree.ok h1) fun _ => Agree.ok h1

theorem pushLoop_apart {fwd : Bool} {ch : Nat} : ∀ (k : Nat) {r r' : Rd} (s : σ) (t : τ), Apart r r' →
    Agree (fun x y => Apart x.1 y.1) (pushLoop fp S fwd ch k r s) (pushLoop fp T fwd ch k r' t)
  | 0, r, r', s, t, h => by unfold pushLoop; exact Agree.ok h
  | k + 1, r, r', s, t, h => by
    unfold pushLoop
    simp only
    refine Agree.skip fun x y => Agree.skip fun x' y' => ?_
    exact (addPoint_apart h ch _ _).bind fun r1 r1' h1 => pushLoop_apart k _ _ h1

theorem quadVal_apart {r r' : Rd} (h : Apart r r') (s : σ) (t : τ) (ch : Nat) :
    Agree (fun x y => Apart x.2.1 y.2.1) (quadVal fp S r s ch) (quadVal fp T r' t ch) := by
  obtain ⟨p, rfl, hp⟩ := id h
  unfold quadVal
  simp only
  refine Agree.bind (q := fun (x : Rd × σ) (y : Rd × τ) => Apart x.1 y.1) ?_ ?_
  · refine Agree.ite (fun _ => ?_) fun _ => Agree.ite (fun _ => ?_) fun _ => Agree.ok h
    · exact Agree.ite (fun _ => Agree.same fun k _ => pushLoop_apart _ _ _ h) fun _ => Agree.ok h
    · exact Agree.ite (fun _ => Agree.same fun k _ => pushLoop_apart _ _ _ h) fun _ => Agree.ok h
  · rintro ⟨r1, s1⟩ ⟨r1', t1⟩ h1
    simp only at h1
    refine (ptsOf_apart h1 ch).bind fun q q' hq => ?_
    simp only [hq]
    exact Agree.ite (fun _ => Agree.skip fun _ _ => Agree.ok h1) fun _ => Agree.ok h1

theorem atEnd_apart {r r' : Rd} (h : Apart r r') : r'.atEnd = r.atEnd := by obtain ⟨p, rfl, _⟩ := h; rfl

theorem readNextValue_apart {r r' : Rd} (h : Apart r r') (s : σ) (t : τ) (ch : Nat) :
    Agree (fun x y => x.1.isSome = y.1.isSome ∧ Apart x.2.1 y.2.1) (readNextValue fp S r s ch) (readNextValue fp T r' t ch) := by
  unfold readNextValue
  rw [atEnd_apart h]
  refine Agree.ite (fun _ => Agree.ok ⟨rfl, h⟩) fun _ => ?_
  refine Agree.skip fun x y => ?_
  have hi : r'.interp = r.interp := by obtain ⟨p, rfl, _⟩ := h; rfl
  simp only [hi]
  cases r.interp with
  | none => exact Agree.ok ⟨rfl, h⟩
  | linear => exact (linearVal_apart h _ _ ch _ _).bind fun _ _ h1 => Agree.ok ⟨rfl, h1⟩
  | quadratic => exact (quadVal_apart h _ _ ch).bind fun _ _ h1 => Agree.ok ⟨rfl, h1⟩

theorem wrapAround_apart {r r' : Rd} (h : Apart r r') : (wrapAround r = none ∧ wrapAround r' = none) ∨ ∃ q q', wrapAround r = some q ∧ wrapAround r' = some q' ∧ Apart q q' := by
  obtain ⟨p, rfl, hp⟩ := h
  unfold wrapAround
  simp only
  cases r.loopType with
  | none => exact Or.inl ⟨rfl, rfl⟩
  | «repeat» => exact Or.inr ⟨_, _, rfl, rfl, p, rfl, hp⟩
  | pingpong => exact Or.inr ⟨_, _, rfl, rfl, p, rfl, hp⟩

theorem readChan_apart : ∀ (fuel : Nat) {r r' : Rd} (s : σ) (t : τ), Apart r r' → ∀ ch : Nat,
    Agree (fun x y => x.1.isSome = y.1.isSome ∧ Apart x.2.1 y.2.1) (readChan fp S fuel r s ch) (readChan fp T fuel r' t ch)
  | 0, r, r', s, t, _, ch => by unfold readChan; exact Agree.error
  | fuel + 1, r, r', s, t, h, ch => by
    unfold readChan
    refine (readNextValue_apart h s t ch).bind ?_
    rintro ⟨o, r1, s1⟩ ⟨o', r1', t1⟩ ⟨h1, h2⟩
    simp only at h1 h2
    cases o with
    | some v =>
      cases o' with
      | some w => exact Agree.ok ⟨rfl, h2⟩
      | none => cases h1
    | none =>
      cases o' with
      | some w => cases h1
      | none =>
        simp only
        rcases wrapAround_apart h2 with ⟨e1, e2⟩ | ⟨q, q', e1, e2, hq⟩
        · rw [e1, e2]
          refine Agree.ok ⟨rfl, ?_⟩
          obtain ⟨p, rfl, hp⟩ := h2
          exact ⟨p, rfl, hp⟩
        · rw [e1, e2]
          exact readChan_apart fuel _ _ hq ch

theorem readFrame_apart {fuel : Nat} : ∀ (left ch : Nat) {r r' : Rd} (s : σ) (t : τ), Apart r r' →
    Agree (fun x y => x.1.length = y.1.length ∧ x.2.1 = y.2.1 ∧ Apart x.2.2.1 y.2.2.1) (readFrame fp S fuel left ch r s) (readFrame fp T fuel left ch r' t)
  | 0, ch, r, r', s, t, h => by unfold readFrame; exact Agree.ok ⟨rfl, rfl, h⟩
  | left + 1, ch, r, r', s, t, h => by
    unfold readFrame
    refine (readChan_apart fuel s t h ch).bind ?_
    rintro ⟨o, r1, s1⟩ ⟨o', r1', t1⟩ ⟨h1, h2⟩
    simp only at h1 h2
    cases o with
    | some v =>
      cases o' with
      | some w =>
        simp only
        refine (readFrame_apart left (ch + 1) s1 t1 h2).bind ?_
        rintro ⟨vs, ok, r2, s2⟩ ⟨vs', ok', r2', t2⟩ ⟨k1, k2, k3⟩
        exact Agree.ok ⟨by simp only [List.length_cons]; rw [k1], k2, k3⟩
      | none => cases h1
    | none =>
      cases o' with
      | some w => cases h1
      | none => exact Agree.ok ⟨rfl, rfl, h2⟩

theorem stepOn_apart {r r' : Rd} (h : Apart r r') : Agree Apart (stepOn fp r) (stepOn fp r') := by
  obtain ⟨p, rfl, hp⟩ := h
  unfold stepOn
  simp only
  refine Agree.same fun _ _ => Agree.same fun _ _ => Agree.same fun _ _ => ?_
  exact Agree.ite (fun _ => Agree.same fun _ _ => Agree.ok ⟨p, rfl, hp⟩) fun _ => Agree.ok ⟨p, rfl, hp⟩

/-- The reader with other samples remembered. -/
def Rd.withPts (r : Rd) (p : Nat → Pts) : Rd := { r with pts := p }

theorem withPts_ite {c : Prop} [Decidable c] (a b : Rd) (p : Nat → Pts) : (if c then a else b).withPts p = if c then a.withPts p else b.withPts p := by split <;> rfl

theorem fadeEnter_pts (r : Rd) (p : Nat → Pts) : fadeEnter { r with pts := p } = { fadeEnter r with pts := p } := by
  change fadeEnter (r.withPts p) = (fadeEnter r).withPts p
  unfold fadeEnter
  rw [withPts_ite, withPts_ite, withPts_ite]
  rfl

theorem fadeEnter_samePts (r : Rd) : (fadeEnter r).pts = r.pts := by
  unfold fadeEnter
  repeat' split
  all_goals rfl

theorem fadeWeight_pts (r : Rd) (p : Nat → Pts) (d : Int) : fadeWeight fp { r with pts := p } d = fadeWeight fp r d := rfl

theorem updateCrossfade_apart {r r' : Rd} (h : Apart r r') : Agree Apart (updateCrossfade fp r) (updateCrossfade fp r') := by
  obtain ⟨p, rfl, hp⟩ := h
  unfold updateCrossfade
  have hp' : ∀ c, (p c).n = ((fadeEnter r).pts c).n := fun c => by rw [fadeEnter_samePts]; exact hp c
  rw [fadeEnter_pts r p]
  generalize fadeEnter r = q at hp'
  dsimp only
  have key : ∀ pos cf on, Apart { q with pos1 := pos, cfOn := on, crossfade := cf } { q with pos1 := pos, cfOn := on, crossfade := cf, pts := p } := fun _ _ _ => ⟨p, rfl, hp'⟩
  refine Agree.ite (fun _ => ?_) fun _ => Agree.ok ⟨p, rfl, hp'⟩
  refine Agree.bind (q := Apart) ?_ ?_
  · refine Agree.ite (fun _ => ?_) fun _ => ?_
    · refine Agree.ite (fun _ => Agree.ok (key _ _ _)) fun _ => ?_
      refine Agree.bind (q := fun a b : ℚ => a = b) ?_ ?_
      · intro a b e1 e2; exact Except.ok.inj (e1.symm.trans e2)
      · rintro w _ rfl; exact Agree.ok (key _ _ _)
    · refine Agree.ite (fun _ => Agree.ok (key _ _ _)) fun _ => ?_
      refine Agree.bind (q := fun a b : ℚ => a = b) ?_ ?_
      · intro a b e1 e2; exact Except.ok.inj (e1.symm.trans e2)
      · rintro w _ rfl; exact Agree.ok (key _ _ _)
  · rintro a _ ⟨p2, rfl, hp2⟩
    exact Agree.ite (fun _ => Agree.ok ⟨p2, rfl, hp2⟩) fun _ => Agree.ok ⟨p2, rfl, hp2⟩

theorem readLoop_apart {fuel : Nat} : ∀ (n : Nat) {r r' : Rd} (s : σ) (t : τ), Apart r r' →
    Agree (fun x y => x.frames.length = y.frames.length ∧ Apart x.r y.r) (readLoop fp S fuel n r s) (readLoop fp T fuel n r' t)
  | 0, r, r', s, t, h => by unfold readLoop; exact Agree.ok ⟨rfl, h⟩
  | n + 1, r, r', s, t, h => by
    unfold readLoop
    have hd : r'.dual = r.dual := by obtain ⟨p, rfl, _⟩ := h; rfl
    have key : ∀ r1 r1' : Rd, Apart r1 r1' → Agree (fun x y => x.frames.length = y.frames.length ∧ Apart x.r y.r)
        (do
          let (vs, ok, r, s) ← readFrame fp S fuel r1.nch.toNat 0 r1 s
          if ok then
            let r ← stepOn fp r
            let o ← readLoop fp S fuel n r s
            return { o with frames := vs :: o.frames }
          else return ⟨[], vs, r, s⟩)
        (do
          let (vs, ok, r, s) ← readFrame fp T fuel r1'.nch.toNat 0 r1' t
          if ok then
            let r ← stepOn fp r
            let o ← readLoop fp T fuel n r s
            return { o with frames := vs :: o.frames }
          else return ⟨[], vs, r, s⟩) := by
      intro r1 r1' h1
      have hn : r1'.nch = r1.nch := by obtain ⟨p, rfl, _⟩ := h1; rfl
      rw [hn]
      refine (readFrame_apart _ 0 s t h1).bind ?_
      rintro ⟨vs, ok, r2, s2⟩ ⟨vs', ok', r2', t2⟩ ⟨k1, k2, k3⟩
      simp only at k1 k2 k3
      subst k2
      simp only
      refine Agree.ite (fun _ => ?_) fun _ => Agree.ok ⟨rfl, k3⟩
      refine (stepOn_apart k3).bind fun r3 r3' h3 => ?_
      refine (readLoop_apart n s2 t2 h3).bind ?_
      rintro x y ⟨j1, j2⟩
      exact Agree.ok ⟨by simp only [List.length_cons]; rw [j1], j2⟩
    rw [hd]
    exact Agree.ite (fun _ => (updateCrossfade_apart h).bind key) fun _ => key r r' h

theorem read_apart {fuel n : Nat} {r r' : Rd} (s : σ) (t : τ) (h : Apart r r') :
    Agree (fun x y => x.frames.length = y.frames.length ∧ Apart x.r y.r) (r.read fp S fuel s n) (r'.read fp T fuel t n) := by
  have hp : r'.playing = r.playing := by obtain ⟨p, rfl, _⟩ := h; rfl
  have hn : r'.nch = r.nch := by obtain ⟨p, rfl, _⟩ := h; rfl
  unfold Rd.read
  rw [hp, hn]
  exact Agree.ite (fun _ => Agree.ok ⟨rfl, h⟩) fun _ => Agree.ite (fun _ => Agree.error) fun _ =>
    Agree.ite (fun _ => Agree.ite (fun _ => Agree.ok ⟨rfl, h⟩) fun _ => Agree.error) fun _ => readLoop_apart n s t h

end

variable {g : Geo} {fp : Fp}

theorem SameTiming.refl (fx : Fx) : SameTiming fx fx := ⟨rfl, rfl, rfl, forall₂_self (R := fun t t' : List Int × Nat => t.2 = t'.2 ∧ t.1.length = t'.1.length) (fun _ => ⟨rfl, rfl⟩) _⟩

theorem update_agree {ρ ρ' : Type} {Q : ρ → ρ' → Prop} {nch : Int} {playing : Bool} {rd : M (List (List Int) × ρ)} {rd' : M (List (List Int) × ρ')} {st : ρ} {st' : ρ'}
    (h : Agree (fun x y => x.1.length = y.1.length ∧ Q x.2 y.2) rd rd') (hq : Q st st') (alloc : Nat → Bool) :
    Agree (fun x y => SameTiming y.1 x.1 ∧ Q x.2 y.2) (update nch playing rd st alloc) (update nch playing rd' st' alloc) := by
  unfold update
  refine Agree.ite (fun _ => Agree.ok ⟨SameTiming.refl _, hq⟩) fun _ => ?_
  by_cases hneg : nch < 0
  · simp only [if_pos hneg]; exact Agree.error
  · simp only [if_neg hneg]
    cases playing with
    | false => exact Agree.ok (q := fun x y => SameTiming y.1 x.1 ∧ Q x.2 y.2) (a := ({}, st)) (b := ({}, st')) ⟨SameTiming.refl _, hq⟩
    | true =>
    change Agree (fun (x : Fx × ρ) (y : Fx × ρ') => SameTiming y.1 x.1 ∧ Q x.2 y.2)
      (if ((List.range nch.toNat).filter alloc).length = _ then _ else _) (if ((List.range nch.toNat).filter alloc).length = _ then _ else _)
    refine Agree.ite (fun _ => ?_) fun _ => by exact Agree.ok ⟨SameTiming.refl _, hq⟩
    refine h.bind ?_
    rintro ⟨fs, s⟩ ⟨fs', s'⟩ ⟨h1, h2⟩
    simp only at h1
    have hlen : ∀ ch, (blockOf fs' ch).length = (blockOf fs ch).length := fun ch => by unfold blockOf; simp only [List.length_append, List.length_map, List.length_replicate, h1]
    refine Agree.ok ⟨⟨rfl, rfl, by simp only [h1], ?_⟩, h2⟩
    simp only
    have hall : List.Forall₂ (fun t t' : List Int × Nat => t.2 = t'.2 ∧ t.1.length = t'.1.length)
        ((List.range nch.toNat).map fun ch => (blockOf fs' ch, ch)) ((List.range nch.toNat).map fun ch => (blockOf fs ch, ch)) :=
      forall₂_map_of fun ch _ => ⟨rfl, hlen ch⟩
    split
    · exact List.rel_append hall (.cons ⟨rfl, hlen 0⟩ .nil)
    · exact hall

/-- A file player and one with a file in memory, at the same place. -/
structure KeepsPlace (p : FilePlayer) (b : MemPlayer) : Prop where
  rd : Apart b.rdr.rd p.rdr.rd
  pend : p.pending = b.pending

theorem KeepsPlace.update (nullOk : Bool) {p : FilePlayer} {b : MemPlayer} (h : KeepsPlace p b) (fuel : Nat) (alloc : Nat → Bool) :
    Agree (fun x y => SameTiming y.1 x.1 ∧ KeepsPlace y.2 x.2) (b.update fp fuel alloc) (p.update fp g nullOk fuel alloc) := by
  unfold MemPlayer.update FilePlayer.update
  have hp : p.rdr.rd.playing = b.rdr.rd.playing := by obtain ⟨q, hq, _⟩ := h.rd; rw [hq]
  have hn : p.rdr.rd.nch = b.rdr.rd.nch := by obtain ⟨q, hq, _⟩ := h.rd; rw [hq]
  have key : Agree (fun (x : Fx × ArrayReader) (y : Fx × FileReader) => SameTiming y.1 x.1 ∧ Apart x.2.rd y.2.rd) (b.rdr.update fp fuel alloc) (p.rdr.update fp g nullOk fuel alloc) := by
    unfold ArrayReader.update FileReader.update
    rw [hp, hn]
    refine update_agree (Q := fun (x : ArrayReader) (y : FileReader) => Apart x.rd y.rd) ?_ h.rd alloc
    unfold ArrayReader.read FileReader.read
    refine (read_apart _ _ h.rd).bind ?_
    rintro x y ⟨k1, k2⟩
    exact Agree.ok ⟨k1, k2⟩
  refine key.bind ?_
  rintro ⟨fx', a'⟩ ⟨fx, f'⟩ ⟨k1, k2⟩
  simp only at k1 k2 ⊢
  rw [k1.2.2.1]
  cases fx'.event with
  | none => exact Agree.ok ⟨k1, k2, h.pend⟩
  | some e => exact Agree.ok ⟨k1, k2, rfl⟩

theorem Apart.set {r r' : Rd} (h : Apart r r') (s : Setting) : Apart (r.set s) (r'.set s) := by
  obtain ⟨p, rfl, hp⟩ := h
  cases s with
  | speed v =>
    simp only [Rd.set, Rd.setPlaybackRate, Rd.posOf, Rd.s2s]
    repeat' split
    all_goals exact ⟨p, rfl, hp⟩
  | _ => exact ⟨p, rfl, hp⟩

theorem KeepsPlace.set {p : FilePlayer} {b : MemPlayer} (h : KeepsPlace p b) (s : Setting) : KeepsPlace (p.set g s) (b.set s) := by
  refine ⟨by rw [p.set_rd]; exact h.rd.set s, ?_⟩
  cases s <;> first | exact h.pend | rfl

theorem KeepsPlace.poll {p : FilePlayer} {b : MemPlayer} (h : KeepsPlace p b) {fuel : Nat} {rs : List ReadResult}
    {p' : FilePlayer} {rs' : List ReadResult} (e : p.runEventF fp g fuel rs = .ok (p', rs')) : KeepsPlace p' b.runEvent := by
  obtain ⟨⟨r, src⟩, pend⟩ := p
  obtain ⟨⟨r2, src2⟩, pend2, served⟩ := b
  obtain ⟨h1, h2⟩ := id h
  simp only at h1 h2
  subst h2
  unfold FilePlayer.runEventF at e
  unfold MemPlayer.runEvent
  match pend with
  | none => cases e; exact h
  | some .close =>
    cases e
    exact ⟨h1.set .stop, rfl⟩
  | some .reload =>
    simp only [FileReader.serviceF] at e
    cases src with
    | none => cases e; exact ⟨h1, rfl⟩
    | some c =>
      simp only at e
      obtain ⟨x, hx, e⟩ := bind_ok_iff.1 e
      obtain ⟨y, hy, hx⟩ := bind_ok_iff.1 hx
      cases hx
      cases e
      exact ⟨h1, rfl⟩

theorem KeepsPlace.calls (nullOk : Bool) {fuel : Nat} : ∀ (ts : List Call) (p : FilePlayer) (b : MemPlayer) (rs : List ReadResult), KeepsPlace p b →
    ∀ {fxs fxs' : List Fx} {p' : FilePlayer} {rs' : List ReadResult} {b' : MemPlayer}, memCalls fp fuel b ts = .ok (fxs', b') → fileCalls fp g nullOk fuel p rs ts = .ok (fxs, p', rs') →
    List.Forall₂ SameTiming fxs fxs' ∧ KeepsPlace p' b'
  | [], p, b, rs, h, fxs, fxs', p', rs', b', e, e' => by
    cases e; cases e'; exact ⟨.nil, h⟩
  | .update al :: ts, p, b, rs, h, fxs, fxs', p', rs', b', e, e' => by
    rw [memCalls] at e
    rw [fileCalls] at e'
    obtain ⟨⟨fx', b1⟩, e1, e⟩ := bind_ok_iff.1 e
    obtain ⟨⟨fxs1, b2⟩, e2, e⟩ := bind_ok_iff.1 e
    cases e
    obtain ⟨⟨fx, p1⟩, i1, e'⟩ := bind_ok_iff.1 e'
    obtain ⟨⟨fxs2, p2, rs2⟩, i2, e'⟩ := bind_ok_iff.1 e'
    cases e'
    obtain ⟨k1, k2⟩ := h.update (fp := fp) (g := g) nullOk fuel al _ _ e1 i1
    obtain ⟨j1, j2⟩ := KeepsPlace.calls nullOk ts p1 b1 rs k2 e2 i2
    exact ⟨.cons k1 j1, j2⟩
  | .poll :: ts, p, b, rs, h, fxs, fxs', p', rs', b', e, e' => by
    rw [memCalls] at e
    rw [fileCalls] at e'
    obtain ⟨⟨p1, rs1⟩, i1, e'⟩ := bind_ok_iff.1 e'
    exact KeepsPlace.calls nullOk ts p1 _ rs1 (h.poll i1) e e'
  | .set s :: ts, p, b, rs, h, fxs, fxs', p', rs', b', e, e' => by
    rw [memCalls] at e
    rw [fileCalls] at e'
    exact KeepsPlace.calls nullOk ts _ _ rs (h.set s) e e'

end TVP
