import Verif.Lemmas.Polarity
import Verif.Lemmas.Loud

/-!
# The sound upside down is played as well
-/

namespace TVP

/-- If the first is well-defined with an outcome in `p`, so is the second, and the outcomes are related. -/
def Goes {α β : Type} (p : α → Prop) (q : α → β → Prop) (x : M α) (y : M β) : Prop := ∀ a, x = .ok a → p a → ∃ b, y = .ok b ∧ q a b

theorem Goes.ok {α β : Type} {p : α → Prop} {q : α → β → Prop} {a : α} {b : β} (h : q a b) : Goes p q (.ok a) (.ok b) := by
  intro a' e _; cases e; exact ⟨b, rfl, h⟩

theorem Goes.bind {α β γ δ : Type} {q : α → β → Prop} {p' : γ → Prop} {q' : γ → δ → Prop} {x : M α} {y : M β} {k : α → M γ} {l : β → M δ}
    (h : ∀ a, x = .ok a → ∃ b, y = .ok b ∧ q a b) (hk : ∀ a b, x = .ok a → q a b → Goes p' q' (k a) (l b)) : Goes p' q' (x >>= k) (y >>= l) := by
  intro c hc hp
  obtain ⟨a, ha, hc⟩ := bind_ok_iff.1 hc
  obtain ⟨b, hb, hq⟩ := h a ha
  obtain ⟨d, hd, hq'⟩ := hk a b ha hq c hc hp
  exact ⟨d, bind_ok_iff.2 ⟨b, hb, hd⟩, hq'⟩

theorem Goes.all {α β : Type} {p : α → Prop} {q : α → β → Prop} {x : M α} {y : M β} (h : Goes p q x y) (hp : ∀ a, x = .ok a → p a) : ∀ a, x = .ok a → ∃ b, y = .ok b ∧ q a b :=
  fun a ha => h a ha (hp a ha)

theorem Goes.same {α γ δ : Type} {p' : γ → Prop} {q' : γ → δ → Prop} {x : M α} {k : α → M γ} {l : α → M δ}
    (hk : ∀ a, x = .ok a → Goes p' q' (k a) (l a)) : Goes p' q' (x >>= k) (x >>= l) :=
  Goes.bind (q := fun a b => a = b) (fun a ha => ⟨a, ha, rfl⟩) fun a _ ha e => e ▸ hk a ha

theorem Goes.ite {α β : Type} {p : α → Prop} {q : α → β → Prop} {c : Prop} [Decidable c] {x x' : M α} {y y' : M β}
    (h : c → Goes p q x y) (h' : ¬ c → Goes p q x' y') : Goes p q (if c then x else x') (if c then y else y') := by
  by_cases hp : c
  · rw [if_pos hp, if_pos hp]; exact h hp
  · rw [if_neg hp, if_neg hp]; exact h' hp

theorem Goes.error {α β : Type} {p : α → Prop} {q : α → β → Prop} {e : Fault} {y : M β} : Goes p q (.error e : M α) y := by intro a h; cases h

/-- From two relations that hold anyway. -/
theorem Goes.agree {α β : Type} {p : α → Prop} {q q' : α → β → Prop} {x : M α} {y : M β} (h : Goes p q x y) (h' : Agree q' x y) : Goes p q' x y := by
  intro a ha hp
  obtain ⟨b, hb, _⟩ := h a ha hp
  exact ⟨b, hb, h' a b ha hb⟩

variable {fp : Fp} {xs ys : List Int}

theorem castI16_goes {α β : Type} {p : α → Prop} {q : α → β → Prop} {x : ℚ} {k : Int → α} {l : Int → β} (hp : ∀ v, p (k v) → v ≠ -32768) (hq : ∀ v, q (k v) (l (-v))) :
    Goes p q (castI16 x >>= fun v => .ok (k v)) (castI16 (-x) >>= fun v => .ok (l v)) := by
  intro a ha hpa
  obtain ⟨v, hv, ha⟩ := bind_ok_iff.1 ha
  cases ha
  have hne := hp v hpa
  unfold castI16 at hv ⊢
  rw [trunc_neg]
  split at hv
  · rename_i hin
    cases hv
    refine ⟨l (-trunc x), ?_, hq _⟩
    rw [if_pos (by unfold InI16 at *; omega)]
    rfl
  · cases hv

theorem srcVal_goes (hy : ys = xs.map (-·)) {p : Int × Option (List Int) → Prop} {r : Rd} {s t : Option (List Int)} (hq : Mems xs ys s t) (pos off : Int) (ch : Nat) :
    Goes p (fun x y => y.1 = -x.1 ∧ Mems xs ys x.2 y.2) (srcVal arraySrc r s pos off ch) (srcVal arraySrc r.flip t pos off ch) := by
  obtain ⟨rfl, rfl⟩ := hq
  unfold srcVal
  refine Goes.same fun a _ => Goes.same fun q _ => ?_
  intro x h1 _
  unfold arraySrc at h1 ⊢
  simp only at h1 ⊢
  split at h1
  · rename_i h0
    rw [if_pos h0, hy, List.getElem?_map]
    cases hv : xs[q.toNat]? with
    | none => rw [hv] at h1; cases h1
    | some v =>
      rw [hv] at h1
      cases h1
      exact ⟨_, rfl, rfl, rfl, rfl⟩
  · cases h1

theorem Goes.any {α β : Type} {q : α → β → Prop} {x : M α} {y : M β} (h : Goes (fun _ => True) q x y) : ∀ a, x = .ok a → ∃ b, y = .ok b ∧ q a b := fun a ha => h a ha trivial

theorem baseVal_goes (he : fp.Even) (hy : ys = xs.map (-·)) {r : Rd} {s t : Option (List Int)} (hq : Mems xs ys s t) (ch : Nat) :
    Goes (fun x => x.1 ≠ -32768) (fun x y => y.1 = -x.1 ∧ Mems xs ys x.2 y.2) (baseVal fp arraySrc r s ch) (baseVal fp arraySrc r.flip t ch) := by
  unfold baseVal
  refine Goes.ite (fun _ => srcVal_goes hy hq _ _ ch) fun _ => Goes.ite (fun _ => srcVal_goes hy hq _ _ ch) fun _ => ?_
  refine Goes.bind (srcVal_goes hy hq _ _ ch).any ?_
  rintro ⟨v1, s1⟩ ⟨w1, t1⟩ _ ⟨h1, h2⟩
  refine Goes.bind (srcVal_goes hy h2 _ _ ch).any ?_
  rintro ⟨v2, s2⟩ ⟨w2, t2⟩ _ ⟨h3, h4⟩
  simp only at h1 h3
  subst h1 h3
  have e := mix_neg he (fp.d.rnd (1 - r.crossfade)) r.crossfade v2 v1
  push_cast
  change Goes _ _ _ (castI16 (fp.d.rnd (fp.d.rnd (fp.d.rnd (1 - r.crossfade) * -(v2 : ℚ)) + fp.d.rnd (r.crossfade * -(v1 : ℚ)))) >>= fun v => .ok (v, t2))
  rw [e]
  exact castI16_goes (k := fun v => (v, s2)) (l := fun v => (v, t2)) (fun v h => h) fun v => ⟨rfl, h4⟩

theorem addPoint_goes {p : Rd → Prop} (r : Rd) (ch : Nat) (y : Int) : Goes p (fun a b => b = a.flip) (addPoint r ch y) (addPoint r.flip ch (-y)) := by
  refine Goes.agree (q := fun _ _ => True) ?_ fun a b ha hb => ((addPoint_flip r ch y) a b ha hb).1
  unfold addPoint
  have e : r.flip.interp = r.interp := rfl
  rw [e]
  cases r.interp with
  | none => exact Goes.ok trivial
  | linear => exact Goes.ite (fun _ => Goes.ok trivial) fun _ => Goes.error
  | quadratic => exact Goes.ite (fun _ => Goes.ok trivial) fun _ => Goes.error

theorem ptsOf_goes {p : Pts → Prop} (r : Rd) (ch : Nat) : Goes p (fun a b => b = a.flip) (ptsOf r ch) (ptsOf r.flip ch) := by
  unfold ptsOf
  exact Goes.ite (fun _ => Goes.ok rfl) fun _ => Goes.error

theorem linearVal_goes (he : fp.Even) (hy : ys = xs.map (-·)) {r : Rd} {s t : Option (List Int)} (hq : Mems xs ys s t) (ch : Nat) (v : Int) :
    Goes (fun x => x.1 ≠ -32768) (fun x y => y.1 = -x.1 ∧ y.2.1 = x.2.1.flip ∧ Mems xs ys x.2.2 y.2.2) (linearVal fp arraySrc r s ch v) (linearVal fp arraySrc r.flip t ch (-v)) := by
  unfold linearVal
  simp only
  refine Goes.ite (fun _ => ?_) fun _ => ?_
  · refine Goes.bind (q := fun x y => y.1 = x.1.flip ∧ Mems xs ys x.2 y.2) (Goes.any ?_) ?_
    · have key : ∀ (off : Int) (n : Pts → Bool), (∀ p : Pts, n p.flip = n p) →
          Goes (fun _ => True) (fun x y => y.1 = x.1.flip ∧ Mems xs ys x.2 y.2)
            (ptsOf r ch >>= fun p => if n p = true then srcVal arraySrc r s r.pos1 off ch >>= fun y =>
              addPoint { r with pts := Function.update r.pts ch { p with y1 := y.1 } } ch v >>= fun q => pure (q, y.2) else addPoint r ch v >>= fun q => pure (q, s))
            (ptsOf r.flip ch >>= fun p => if n p = true then srcVal arraySrc r.flip t r.flip.pos1 off ch >>= fun y =>
              addPoint { r.flip with pts := Function.update r.flip.pts ch { p with y1 := y.1 } } ch (-v) >>= fun q => pure (q, y.2) else addPoint r.flip ch (-v) >>= fun q => pure (q, t)) := by
        intro off n hn
        refine Goes.bind (ptsOf_goes r ch).any ?_
        rintro p _ _ rfl
        rw [hn]
        refine Goes.ite (fun _ => ?_) fun _ => ?_
        · refine Goes.bind (srcVal_goes hy hq _ _ ch).any ?_
          rintro ⟨v1, s1⟩ ⟨w1, t1⟩ _ ⟨h1, h2⟩
          simp only at h1
          subst h1
          have e : ({ r.flip with pts := Function.update r.flip.pts ch { p.flip with y1 := -v1 } } : Rd) = ({ r with pts := Function.update r.pts ch { p with y1 := v1 } } : Rd).flip := by
            unfold Rd.flip
            simp only [flip_update]
            rfl
          simp only
          rw [e]
          exact Goes.bind (addPoint_goes _ ch v).any fun a b _ k => Goes.ok ⟨k, h2⟩
        · exact Goes.bind (addPoint_goes _ ch v).any fun a b _ k => Goes.ok ⟨k, hq⟩
      refine Goes.ite (fun _ => ?_) fun _ => Goes.ite (fun _ => ?_) fun _ => Goes.ok ⟨rfl, hq⟩
      · refine Goes.ite (fun _ => ?_) fun _ => Goes.ok ⟨rfl, hq⟩
        exact key (-1) (fun p => !r.dual && p.n < 2 && r.rate > 1 && r.pos1 - r.nch > r.header * 2) fun p => rfl
      · refine Goes.ite (fun _ => ?_) fun _ => Goes.ok ⟨rfl, hq⟩
        exact key 1 (fun p => !r.dual && p.n < 2 && r.rate < -1) fun p => rfl
    · rintro ⟨r1, s1⟩ ⟨_, t1⟩ _ ⟨h1, h3⟩
      simp only at h1
      subst h1
      refine Goes.bind (ptsOf_goes r1 ch).any ?_
      rintro p _ _ rfl
      refine Goes.ite (fun _ => ?_) fun _ => Goes.ok ⟨rfl, rfl, h3⟩
      have e := mix_neg he |r.rem| (fp.d.rnd (1 - |r.rem|)) p.y1 p.y0
      change Goes _ _ _ (castI16 (fp.d.rnd (fp.d.rnd (|r.rem| * ((-p.y1 : Int) : ℚ)) + fp.d.rnd (fp.d.rnd (1 - |r.rem|) * ((-p.y0 : Int) : ℚ)))) >>= fun v => .ok (v, r1.flip, t1))
      push_cast
      rw [e]
      exact castI16_goes (k := fun v => (v, r1, s1)) (l := fun v => (v, r1.flip, t1)) (fun v h => h) fun v => ⟨rfl, rfl, h3⟩
  · refine Goes.bind (addPoint_goes r ch v).any ?_
    rintro a _ _ rfl
    refine Goes.bind (ptsOf_goes a ch).any ?_
    rintro p _ _ rfl
    exact Goes.ok ⟨rfl, rfl, hq⟩

theorem soft_ne {v : Int} (h : Soft 32767 v) : v ≠ -32768 := by
  have := (abs_le.1 h.2).1
  omega

/-- Without cubic interpolation. -/
theorem Hushed.plain {M : Int} {r : Rd} (h : Hushed M r) (hM : M ≠ 0) : r.interp ≠ .quadratic := (h.kind.resolve_left hM).2

theorem readNextValue_goes (he : fp.Even) (hd : ∀ v ∈ xs, Soft 32767 v) (hy : ys = xs.map (-·)) {r : Rd} (hr : Hushed 32767 r) {s t : Option (List Int)} (hq : Mems xs ys s t) (ch : Nat) :
    Goes (fun _ => True) (fun x y => Ups false x.1 y.1 ∧ y.2.1 = x.2.1.flip ∧ Mems xs ys x.2.2 y.2.2) (readNextValue fp arraySrc r s ch) (readNextValue fp arraySrc r.flip t ch) := by
  have hS := arraySrc_soft (M := 32767) hd
  unfold readNextValue
  refine Goes.ite (fun _ => Goes.ok ⟨Or.inl ⟨rfl, rfl⟩, rfl, hq⟩) fun _ => ?_
  refine Goes.bind ((baseVal_goes he hy hq ch).all fun a ha => soft_ne (baseVal_hushed hS hr hq.1 ha).2) ?_
  rintro ⟨v, s1⟩ ⟨w, t1⟩ hb ⟨h1, h2⟩
  simp only at h1
  subst h1
  have e : r.flip.interp = r.interp := rfl
  simp only [e]
  cases hi : r.interp with
  | none => exact Goes.ok ⟨Or.inr ⟨_, _, rfl, rfl, Or.inl rfl⟩, rfl, h2⟩
  | linear =>
    refine Goes.bind ((linearVal_goes he hy h2 ch v).all fun a ha => soft_ne (linearVal_hushed hS hr h2.1 (baseVal_hushed hS hr hq.1 hb).2 ha).2.2) ?_
    rintro ⟨v2, r2, s2⟩ ⟨w2, r2', t2⟩ _ ⟨h3, h4, h5⟩
    exact Goes.ok ⟨Or.inr ⟨_, _, rfl, rfl, Or.inl h3⟩, h4, h5⟩
  | quadratic => exact absurd hi (hr.plain (by norm_num))

theorem readChan_goes (he : fp.Even) (hd : ∀ v ∈ xs, Soft 32767 v) (hy : ys = xs.map (-·)) : ∀ (fuel : Nat) {r : Rd} {s t : Option (List Int)}, Hushed 32767 r → Mems xs ys s t → ∀ (ch : Nat),
    Goes (fun _ => True) (fun x y => Ups false x.1 y.1 ∧ y.2.1 = x.2.1.flip ∧ Mems xs ys x.2.2 y.2.2) (readChan fp arraySrc fuel r s ch) (readChan fp arraySrc fuel r.flip t ch)
  | 0, r, s, t, _, _, ch => by unfold readChan; exact Goes.error
  | fuel + 1, r, s, t, hr, hq, ch => by
    unfold readChan
    refine Goes.bind (readNextValue_goes he hd hy hr hq ch).any ?_
    rintro ⟨o, r1, s1⟩ ⟨p, _, t1⟩ hx ⟨h1, h2, h4⟩
    have hr1 := (readNextValue_hushed (arraySrc_soft (M := 32767) hd) hr hq.1 hx).1
    simp only at h1 h2 h4
    subst h2
    rcases h1 with ⟨rfl, rfl⟩ | ⟨v, w, rfl, rfl, hv⟩
    · simp only [wrapAround_flip]
      cases hw : wrapAround r1 with
      | none => exact Goes.ok ⟨Or.inl ⟨rfl, rfl⟩, rfl, h4⟩
      | some r2 =>
        simp only [Option.map_some]
        exact readChan_goes he hd hy fuel (wrapAround_hushed hr1 hw) h4 ch
    · exact Goes.ok ⟨Or.inr ⟨v, w, rfl, rfl, hv⟩, rfl, h4⟩

theorem readFrame_goes (he : fp.Even) (hd : ∀ v ∈ xs, Soft 32767 v) (hy : ys = xs.map (-·)) {fuel : Nat} : ∀ (left ch : Nat) {r : Rd} {s t : Option (List Int)}, Hushed 32767 r → Mems xs ys s t →
    Goes (fun _ => True) (fun x y => x.2.1 = y.2.1 ∧ y.2.2.1 = x.2.2.1.flip ∧ Mems xs ys x.2.2.2 y.2.2.2)
      (readFrame fp arraySrc fuel left ch r s) (readFrame fp arraySrc fuel left ch r.flip t)
  | 0, ch, r, s, t, _, hq => by unfold readFrame; exact Goes.ok ⟨rfl, rfl, hq⟩
  | left + 1, ch, r, s, t, hr, hq => by
    unfold readFrame
    refine Goes.bind (readChan_goes he hd hy fuel hr hq ch).any ?_
    rintro ⟨o, r1, s1⟩ ⟨p, _, t1⟩ hx ⟨h1, h2, h4⟩
    have hr1 := (readChan_hushed (arraySrc_soft (M := 32767) hd) hr hq.1 hx).1
    simp only at h1 h2 h4
    subst h2
    rcases h1 with ⟨rfl, rfl⟩ | ⟨v, w, rfl, rfl, hv⟩
    · exact Goes.ok ⟨rfl, rfl, h4⟩
    · simp only
      refine Goes.bind (readFrame_goes he hd hy left (ch + 1) hr1 h4).any ?_
      rintro ⟨vs, ok, r2, s2⟩ ⟨ws, ok', _, t2⟩ _ ⟨k2, k3, k5⟩
      exact Goes.ok ⟨k2, k3, k5⟩

theorem updateCrossfade_goes (r : Rd) : Goes (fun _ => True) (fun x y => y = x.flip) (updateCrossfade fp r) (updateCrossfade fp r.flip) := by
  unfold updateCrossfade
  rw [fadeEnter_flip]
  generalize fadeEnter r = q
  simp only
  refine Goes.ite (fun _ => ?_) fun _ => Goes.ok rfl
  refine Goes.bind (q := fun (x y : Rd) => y = x.flip) (Goes.any ?_) ?_
  · refine Goes.ite (fun _ => ?_) fun _ => ?_
    · exact Goes.ite (fun _ => Goes.ok rfl) fun _ => Goes.same fun w _ => Goes.ok rfl
    · exact Goes.ite (fun _ => Goes.ok rfl) fun _ => Goes.same fun w _ => Goes.ok rfl
  · rintro a _ _ rfl
    exact Goes.ite (fun _ => Goes.ok rfl) fun _ => Goes.ok rfl

theorem stepOn_goes (r : Rd) : Goes (fun _ => True) (fun x y => y = x.flip) (stepOn fp r) (stepOn fp r.flip) := by
  unfold stepOn
  exact Goes.same fun d _ => Goes.same fun st _ => Goes.same fun p _ => Goes.ite (fun _ => Goes.same fun _ _ => Goes.ok rfl) fun _ => Goes.ok rfl

theorem readLoop_goes (he : fp.Even) (hd : ∀ v ∈ xs, Soft 32767 v) (hy : ys = xs.map (-·)) {fuel : Nat} : ∀ (n : Nat) {r : Rd} {s t : Option (List Int)}, Hushed 32767 r → Poised fp 32767 r → Mems xs ys s t →
    Goes (fun _ => True) (fun _ _ => True) (readLoop fp arraySrc fuel n r s) (readLoop fp arraySrc fuel n r.flip t)
  | 0, r, s, t, _, _, hq => by unfold readLoop; exact Goes.ok trivial
  | n + 1, r, s, t, hr, hx, hq => by
    have hS := arraySrc_soft (M := 32767) hd
    rw [readLoop_succ, readLoop_succ]
    have e : r.flip.dual = r.dual := rfl
    simp only [e]
    refine Goes.bind (q := fun (x y : Rd) => y = x.flip ∧ Hushed 32767 x ∧ Poised fp 32767 x) (Goes.any ?_) ?_
    · refine Goes.ite (fun _ => ?_) fun _ => Goes.ok ⟨rfl, hr, hx⟩
      intro x h1 _
      obtain ⟨y, h2, h3⟩ := (updateCrossfade_goes r).any x h1
      refine ⟨y, h2, h3, updateCrossfade_hushed hr hx h1, hx.imp_right (Or.imp (fun k => ?_) fun k => ⟨?_, k.2.1.update fp h1, k.2.2⟩)⟩
      · rw [(updateCrossfade_conf h1).dual]; exact k
      · rw [(updateCrossfade_conf h1).dual]; exact k.1
    · rintro r1 _ _ ⟨rfl, k1, k1'⟩
      refine Goes.bind (readFrame_goes he hd hy _ 0 k1 hq).any ?_
      rintro ⟨vs, ok, r2, s2⟩ ⟨ws, ok', _, t2⟩ h2 ⟨j1, j2, j3⟩
      simp only at j1 j2 j3
      subst j1 j2
      obtain ⟨k2, k3, k4⟩ := readFrame_hushed hS k1 hq.1 h2
      have k5 : Poised fp 32767 r2 := by
        rcases k1' with k | k | ⟨k, k', k''⟩
        · exact Or.inl k
        · exact Or.inr (Or.inl (by rw [(readFrame_cases h2).1.dual]; exact k))
        · obtain ⟨_, _, e⟩ := readFrame_settled (atEnd_dual k) h2
          exact Or.inr (Or.inr ⟨by rw [e.conf.dual]; exact k, k'.same e, k''⟩)
      simp only
      refine Goes.ite (fun _ => ?_) fun _ => Goes.ok trivial
      refine Goes.bind (stepOn_goes r2).any ?_
      rintro r3 _ h5 rfl
      have k6 : Poised fp 32767 r3 := by
        rcases k5 with k | k | ⟨k, k', k''⟩
        · exact Or.inl k
        · exact Or.inr (Or.inl (by rw [(stepOn_conf h5).dual]; exact k))
        · exact Or.inr (Or.inr ⟨by rw [(stepOn_conf h5).dual]; exact k, k'.step k'' h5, k''⟩)
      exact Goes.bind (readLoop_goes he hd hy n (stepOn_hushed k2 h5) k6 j3).any fun x y _ _ => Goes.ok trivial

theorem read_goes (he : fp.Even) (hd : ∀ v ∈ xs, Soft 32767 v) (hy : ys = xs.map (-·)) {fuel n : Nat} {r : Rd} {s t : Option (List Int)} (hr : Tame fp 32767 r) (hq : Mems xs ys s t) :
    Goes (fun _ => True) (fun _ _ => True) (r.read fp arraySrc fuel s n) (r.flip.read fp arraySrc fuel t n) := by
  unfold Rd.read
  exact Goes.ite (fun _ => Goes.ok trivial) fun _ => Goes.ite (fun _ => Goes.error) fun _ =>
    Goes.ite (fun _ => Goes.ite (fun _ => Goes.ok trivial) fun _ => Goes.error) fun _ => readLoop_goes he hd hy n hr.hush hr.poised hq

/-- One update is well-defined if reading is. -/
theorem update_goes {ρ ρ' : Type} {nch : Int} {playing : Bool} {rd : M (List (List Int) × ρ)} {rd' : M (List (List Int) × ρ')} {st : ρ} {st' : ρ'}
    (h : Goes (fun _ => True) (fun _ _ => True) rd rd') (alloc : Nat → Bool) :
    Goes (fun _ => True) (fun _ _ => True) (update nch playing rd st alloc) (update nch playing rd' st' alloc) := by
  unfold update
  refine Goes.ite (fun _ => by exact Goes.ok trivial) fun _ => ?_
  by_cases hneg : nch < 0
  · simp only [if_pos hneg]; exact Goes.error
  · simp only [if_neg hneg]
    cases playing with
    | false => exact fun _ _ _ => ⟨_, rfl, trivial⟩
    | true =>
    change Goes (fun _ => True) (fun _ _ => True)
      (if ((List.range nch.toNat).filter alloc).length = _ then _ else _) (if ((List.range nch.toNat).filter alloc).length = _ then _ else _)
    refine Goes.ite (fun _ => ?_) fun _ => by exact Goes.ok trivial
    exact Goes.bind h.any fun x y _ _ => Goes.ok trivial

end TVP
