import Verif.Lemmas.SrcInv
import Verif.Lemmas.Mix
import Verif.Lemmas.Drift
import Verif.Lemmas.Safe
import Verif.Lemmas.Fade
import Verif.Model.Settings

/-!
# Reading never makes the sound louder
-/

namespace TVP

/-- A 16-bit sample of at most `M` in magnitude. -/
def Soft (M v : Int) : Prop := InI16 v ∧ |v| ≤ M

/-- Every value obtained is soft. -/
def SoftSrc {σ : Type} (S : Src σ) (I : σ → Prop) (M : Int) : Prop := ∀ s i v s', I s → S.get s i = .ok (v, s') → I s' ∧ Soft M v

def SoftPts (M : Int) (p : Pts) : Prop := Soft M p.y0 ∧ Soft M p.y1 ∧ Soft M p.y2 ∧ Soft M p.y3

/-- What is kept while reading. -/
structure Hushed (M : Int) (r : Rd) : Prop where
  M0 : 0 ≤ M
  pts : ∀ c, SoftPts M (r.pts c)
  frac : |r.rem| ≤ 1
  kind : M = 0 ∨ (r.dual = false ∨ 0 ≤ r.crossfade ∧ r.crossfade ≤ 1) ∧ r.interp ≠ .quadratic

/-- What keeps it so: with two heads, the weight of the fade stays a weight. -/
def Poised (fp : Fp) (M : Int) (r : Rd) : Prop := M = 0 ∨ r.dual = false ∨ r.dual = true ∧ FadeOk r ∧ Representable fp

variable {σ : Type} {S : Src σ} {I : σ → Prop} {M : Int} {fp : Fp}

theorem soft_zero (h : 0 ≤ M) : Soft M 0 := ⟨by unfold InI16; omega, by simpa using h⟩

theorem Soft.eq_zero {v : Int} (h : Soft 0 v) : v = 0 := abs_eq_zero.1 (le_antisymm h.2 (abs_nonneg v))

theorem castI16_zero : castI16 0 = .ok 0 := by unfold castI16 trunc; simp [InI16]

theorem srcVal_hushed (hS : SoftSrc S I M) {r : Rd} {s s' : σ} {pos off v : Int} {ch : Nat} (hs : I s)
    (h : srcVal S r s pos off ch = .ok (v, s')) : I s' ∧ Soft M v := by
  unfold srcVal at h
  obtain ⟨p, _, h⟩ := bind_ok_iff.1 h
  obtain ⟨q, _, h⟩ := bind_ok_iff.1 h
  exact hS _ _ _ _ hs h

theorem baseVal_hushed (hS : SoftSrc S I M) {r : Rd} (hr : Hushed M r) {s s' : σ} {v : Int} {ch : Nat} (hs : I s)
    (h : baseVal fp S r s ch = .ok (v, s')) : I s' ∧ Soft M v := by
  unfold baseVal at h
  split at h
  · exact srcVal_hushed hS hs h
  · rename_i hc
    split at h
    · exact srcVal_hushed hS hs h
    · obtain ⟨⟨v1, s1⟩, h1, h⟩ := bind_ok_iff.1 h
      obtain ⟨⟨v2, s2⟩, h2, h⟩ := bind_ok_iff.1 h
      obtain ⟨w, hw, h⟩ := bind_ok_iff.1 h
      cases h
      obtain ⟨k1, k2⟩ := srcVal_hushed hS hs h1
      obtain ⟨k3, k4⟩ := srcVal_hushed hS k1 h2
      refine ⟨k3, ?_⟩
      rcases hr.kind with rfl | ⟨hd | ⟨w0, w1⟩, _⟩
      · rw [k2.eq_zero, k4.eq_zero] at hw
        simp only [Int.cast_zero, mul_zero, Rounding.exact_zero, add_zero, castI16_zero] at hw
        cases hw
        exact soft_zero le_rfl
      · rw [hd] at hc; simp at hc
      · obtain ⟨m, e1, e2, _, _, e3, _⟩ := mix_ok fp.d w0 w1 k2.1 k4.1
        rw [add_comm] at e1
        rw [e1] at hw
        cases hw
        exact ⟨e2, e3.trans (max_le k2.2 k4.2)⟩

theorem addPoint_hushed {r r' : Rd} (hr : Hushed M r) {ch : Nat} {y : Int} (hy : Soft M y) (h : addPoint r ch y = .ok r') : Hushed M r' := by
  have hall : ∀ q : Pts, SoftPts M q → ∀ c, SoftPts M (Function.update r.pts ch q c) := by
    intro q hq c
    by_cases hc : c = ch
    · subst hc; rw [Function.update_self]; exact hq
    · rw [Function.update_of_ne hc]; exact hr.pts c
  obtain ⟨p0, p1, p2, p3⟩ := hr.pts ch
  unfold addPoint at h
  split at h
  · cases h; exact hr
  · split at h
    · cases h
      exact ⟨hr.M0, hall _ ⟨p1, hy, p2, p3⟩, hr.frac, hr.kind⟩
    · cases h
  · split at h
    · cases h
      exact ⟨hr.M0, hall _ ⟨p1, p2, p3, hy⟩, hr.frac, hr.kind⟩
    · cases h

theorem pushLoop_hushed (hS : SoftSrc S I 0) {fwd : Bool} {ch : Nat} : ∀ {k : Nat} {r r' : Rd} {s s' : σ}, Hushed 0 r → I s →
    pushLoop fp S fwd ch k r s = .ok (r', s') → Hushed 0 r' ∧ I s'
  | 0, r, r', s, s', hr, hs, h => by unfold pushLoop at h; cases h; exact ⟨hr, hs⟩
  | k + 1, r, r', s, s', hr, hs, h => by
    unfold pushLoop at h
    simp only at h
    obtain ⟨⟨y, s1⟩, h1, h⟩ := bind_ok_iff.1 h
    obtain ⟨k1, k2⟩ := srcVal_hushed hS hs h1
    obtain ⟨⟨y2, s2⟩, h2, h⟩ := bind_ok_iff.1 h
    have k3 : I s2 ∧ Soft 0 y2 := by
      clear h
      split at h2
      · obtain ⟨⟨v2, s3⟩, h3, h2⟩ := bind_ok_iff.1 h2
        obtain ⟨w, hw, h2⟩ := bind_ok_iff.1 h2
        cases h2
        obtain ⟨k4, k5⟩ := srcVal_hushed hS k1 h3
        refine ⟨k4, ?_⟩
        rw [k2.eq_zero, k5.eq_zero] at hw
        simp only [Int.cast_zero, zero_mul, Rounding.exact_zero, add_zero, castI16_zero] at hw
        cases hw
        exact soft_zero le_rfl
      · cases h2; exact ⟨k1, k2⟩
    obtain ⟨r1, h4, h⟩ := bind_ok_iff.1 h
    exact pushLoop_hushed hS (addPoint_hushed hr k3.2 h4) k3.1 h

theorem ptsOf_hushed {r : Rd} (hr : Hushed M r) {ch : Nat} {p : Pts} (h : ptsOf r ch = .ok p) : SoftPts M p := by
  unfold ptsOf at h
  split at h
  · cases h; exact hr.pts ch
  · cases h

theorem Hushed.setY {r : Rd} (hr : Hushed M r) {ch : Nat} {p : Pts} (hp : SoftPts M p) {y : Int} (hy : Soft M y) :
    Hushed M { r with pts := Function.update r.pts ch { p with y1 := y } } := by
  refine ⟨hr.M0, fun c => ?_, hr.frac, hr.kind⟩
  by_cases hc : c = ch
  · subst hc; simp only [Function.update_self]; exact ⟨hp.1, hy, hp.2.2.1, hp.2.2.2⟩
  · simp only [Function.update_of_ne hc]; exact hr.pts c

theorem linearVal_hushed (hS : SoftSrc S I M) {r r' : Rd} (hr : Hushed M r) {s s' : σ} {ch : Nat} {v v' : Int} (hs : I s) (hv : Soft M v)
    (h : linearVal fp S r s ch v = .ok (v', r', s')) : Hushed M r' ∧ I s' ∧ Soft M v' := by
  unfold linearVal at h
  simp only at h
  split at h
  · obtain ⟨⟨r1, s1⟩, h1, h⟩ := bind_ok_iff.1 h
    have k1 : Hushed M r1 ∧ I s1 := by
      clear h
      split at h1
      · split at h1
        · obtain ⟨p, hp, h1⟩ := bind_ok_iff.1 h1
          split at h1
          · obtain ⟨⟨y, s2⟩, h2, h1⟩ := bind_ok_iff.1 h1
            obtain ⟨q, hq, h1⟩ := bind_ok_iff.1 h1
            obtain ⟨e1, e2⟩ := srcVal_hushed hS hs h2
            cases h1; exact ⟨addPoint_hushed (hr.setY (ptsOf_hushed hr hp) e2) hv hq, e1⟩
          · obtain ⟨q, hq, h1⟩ := bind_ok_iff.1 h1
            cases h1; exact ⟨addPoint_hushed hr hv hq, hs⟩
        · cases h1; exact ⟨hr, hs⟩
      · split at h1
        · split at h1
          · obtain ⟨p, hp, h1⟩ := bind_ok_iff.1 h1
            split at h1
            · obtain ⟨⟨y, s2⟩, h2, h1⟩ := bind_ok_iff.1 h1
              obtain ⟨q, hq, h1⟩ := bind_ok_iff.1 h1
              obtain ⟨e1, e2⟩ := srcVal_hushed hS hs h2
              cases h1; exact ⟨addPoint_hushed (hr.setY (ptsOf_hushed hr hp) e2) hv hq, e1⟩
            · obtain ⟨q, hq, h1⟩ := bind_ok_iff.1 h1
              cases h1; exact ⟨addPoint_hushed hr hv hq, hs⟩
          · cases h1; exact ⟨hr, hs⟩
        · cases h1; exact ⟨hr, hs⟩
    obtain ⟨p, hp, h⟩ := bind_ok_iff.1 h
    obtain ⟨q0, q1, _, _⟩ := ptsOf_hushed k1.1 hp
    split at h
    · obtain ⟨w, hw, h⟩ := bind_ok_iff.1 h
      cases h
      obtain ⟨m, e1, e2, _, _, e3, _⟩ := mix_ok fp.d (abs_nonneg r.rem) hr.frac q1.1 q0.1
      rw [hw] at e1
      cases e1
      exact ⟨k1.1, k1.2, e2, e3.trans (max_le q1.2 q0.2)⟩
    · cases h; exact ⟨k1.1, k1.2, hv⟩
  · obtain ⟨r1, h1, h⟩ := bind_ok_iff.1 h
    obtain ⟨p, hp, h⟩ := bind_ok_iff.1 h
    have k1 := addPoint_hushed hr hv h1
    cases h; exact ⟨k1, hs, (ptsOf_hushed k1 hp).1⟩

theorem fastinterpolate_zero (x : ℚ) : fastinterpolate fp 0 0 0 0 x = .ok 0 := by
  have h : fiValue fp 0 0 0 0 x = 0 := by
    unfold fiValue fiTerm
    simp only [Int.cast_zero, zero_mul, Rounding.exact_zero, zero_div, add_zero]
  unfold fastinterpolate
  rw [h]
  rfl

theorem quadVal_hushed (hS : SoftSrc S I 0) {r r' : Rd} (hr : Hushed 0 r) {s s' : σ} {ch : Nat} {v' : Int} (hs : I s)
    (h : quadVal fp S r s ch = .ok (v', r', s')) : Hushed 0 r' ∧ I s' ∧ Soft 0 v' := by
  unfold quadVal at h
  simp only at h
  obtain ⟨⟨r1, s1⟩, h1, h⟩ := bind_ok_iff.1 h
  have k1 : Hushed 0 r1 ∧ I s1 := by
    clear h
    split at h1
    · split at h1
      · obtain ⟨k, _, h1⟩ := bind_ok_iff.1 h1
        exact pushLoop_hushed hS hr hs h1
      · cases h1; exact ⟨hr, hs⟩
    · split at h1
      · split at h1
        · obtain ⟨k, _, h1⟩ := bind_ok_iff.1 h1
          exact pushLoop_hushed hS hr hs h1
        · cases h1; exact ⟨hr, hs⟩
      · cases h1; exact ⟨hr, hs⟩
  obtain ⟨p, hp, h⟩ := bind_ok_iff.1 h
  obtain ⟨q0, q1, q2, q3⟩ := ptsOf_hushed k1.1 hp
  split at h
  · obtain ⟨w, hw, h⟩ := bind_ok_iff.1 h
    cases h
    rw [q0.eq_zero, q1.eq_zero, q2.eq_zero, q3.eq_zero, fastinterpolate_zero] at hw
    cases hw
    exact ⟨k1.1, k1.2, soft_zero le_rfl⟩
  · cases h; exact ⟨k1.1, k1.2, soft_zero le_rfl⟩

theorem readNextValue_hushed (hS : SoftSrc S I M) {r r' : Rd} (hr : Hushed M r) {s s' : σ} {ch : Nat} {o : Option Int} (hs : I s)
    (h : readNextValue fp S r s ch = .ok (o, r', s')) : Hushed M r' ∧ I s' ∧ ∀ v, o = some v → Soft M v := by
  unfold readNextValue at h
  split at h
  · cases h; exact ⟨hr, hs, fun v hv => (nomatch hv)⟩
  · obtain ⟨⟨v, s1⟩, h1, h⟩ := bind_ok_iff.1 h
    obtain ⟨k1, k2⟩ := baseVal_hushed hS hr hs h1
    simp only at h
    split at h
    · cases h; exact ⟨hr, k1, fun v hv => by injection hv with hv; rw [← hv]; exact k2⟩
    · obtain ⟨⟨v2, r2, s2⟩, h2, h⟩ := bind_ok_iff.1 h
      obtain ⟨e1, e2, e3⟩ := linearVal_hushed hS hr k1 k2 h2
      cases h; exact ⟨e1, e2, fun v hv => by injection hv with hv; rw [← hv]; exact e3⟩
    · rename_i hq
      obtain ⟨⟨v2, r2, s2⟩, h2, h⟩ := bind_ok_iff.1 h
      rcases hr.kind with rfl | ⟨_, hk⟩
      · obtain ⟨e1, e2, e3⟩ := quadVal_hushed hS hr k1 h2
        cases h; exact ⟨e1, e2, fun v hv => by injection hv with hv; rw [← hv]; exact e3⟩
      · exact absurd hq hk

theorem wrapAround_hushed {r r' : Rd} (hr : Hushed M r) (h : wrapAround r = some r') : Hushed M r' := by
  unfold wrapAround at h
  simp only at h
  split at h
  all_goals cases h
  all_goals exact ⟨hr.M0, hr.pts, hr.frac, hr.kind⟩

theorem readChan_hushed (hS : SoftSrc S I M) : ∀ {fuel : Nat} {r r' : Rd} {s s' : σ} {ch : Nat} {o : Option Int}, Hushed M r → I s →
    readChan fp S fuel r s ch = .ok (o, r', s') → Hushed M r' ∧ I s' ∧ ∀ v, o = some v → Soft M v
  | 0, r, r', s, s', ch, o, hr, hs, h => by unfold readChan at h; cases h
  | fuel + 1, r, r', s, s', ch, o, hr, hs, h => by
    unfold readChan at h
    obtain ⟨⟨o1, r1, s1⟩, h1, h⟩ := bind_ok_iff.1 h
    obtain ⟨k1, k2, k3⟩ := readNextValue_hushed hS hr hs h1
    cases o1 with
    | some v => cases h; exact ⟨k1, k2, k3⟩
    | none =>
      simp only at h
      cases hw : wrapAround r1 with
      | none => rw [hw] at h; cases h; exact ⟨⟨k1.M0, k1.pts, k1.frac, k1.kind⟩, k2, k3⟩
      | some r2 => rw [hw] at h; exact readChan_hushed hS (wrapAround_hushed k1 hw) k2 h

theorem readFrame_hushed (hS : SoftSrc S I M) {fuel : Nat} : ∀ {left ch : Nat} {r r' : Rd} {s s' : σ}
    {vs : List Int} {ok : Bool}, Hushed M r → I s → readFrame fp S fuel left ch r s = .ok (vs, ok, r', s') → Hushed M r' ∧ I s' ∧ ∀ v ∈ vs, Soft M v
  | 0, ch, r, r', s, s', vs, ok, hr, hs, h => by unfold readFrame at h; cases h; exact ⟨hr, hs, by simp⟩
  | left + 1, ch, r, r', s, s', vs, ok, hr, hs, h => by
    unfold readFrame at h
    obtain ⟨⟨o, r1, s1⟩, h1, h⟩ := bind_ok_iff.1 h
    obtain ⟨k1, k2, k3⟩ := readChan_hushed hS hr hs h1
    cases o with
    | none => cases h; exact ⟨k1, k2, by simp⟩
    | some v =>
      obtain ⟨⟨vs1, ok1, r2, s2⟩, h2, h⟩ := bind_ok_iff.1 h
      cases h
      obtain ⟨e1, e2, e3⟩ := readFrame_hushed hS k1 k2 h2
      refine ⟨e1, e2, fun w hw => ?_⟩
      rcases List.mem_cons.1 hw with rfl | hw
      · exact k3 _ rfl
      · exact e3 w hw

theorem trunc_frac (x : ℚ) : |x - trunc x| ≤ 1 := by
  have h := trunc_near x
  exact (abs_sub_comm x _ ▸ h).le

theorem rnd_in_one (R : Fp64) {x : ℚ} (h : |x| ≤ 1) : |R.rnd x| ≤ 1 := by
  obtain ⟨h1, h2⟩ := abs_le.1 h
  have e1 : R.rnd 1 = 1 := R.exact _ ⟨1, 0, by norm_num, by norm_num, by norm_num⟩
  have e2 : R.rnd (-1) = -1 := R.exact _ ⟨-1, 0, by norm_num, by norm_num, by norm_num⟩
  exact abs_le.2 ⟨by rw [← e2]; exact R.mono h1, by rw [← e1]; exact R.mono h2⟩

theorem stepOn_hushed {r r' : Rd} (hr : Hushed M r) (h : stepOn fp r = .ok r') : Hushed M r' := by
  obtain ⟨p, rfl⟩ := stepOn_inv h
  exact ⟨hr.M0, hr.pts, rnd_in_one _ (trunc_frac _), hr.kind⟩

theorem updateCrossfade_hushed {r r' : Rd} (hr : Hushed M r) (hx : Poised fp M r) (h : updateCrossfade fp r = .ok r') : Hushed M r' := by
  have hc := updateCrossfade_conf h
  have hp : r'.pts = r.pts ∧ r'.rem = r.rem := by
    have h0 : (fadeEnter r).pts = r.pts ∧ (fadeEnter r).rem = r.rem := by
      unfold fadeEnter
      repeat' split
      all_goals exact ⟨rfl, rfl⟩
    rw [← h0.1, ← h0.2]
    unfold updateCrossfade at h
    generalize fadeEnter r = q at *
    simp only at h
    split at h
    · obtain ⟨r1, h1, h⟩ := bind_ok_iff.1 h
      have h2 : r1.pts = q.pts ∧ r1.rem = q.rem := by
        clear h
        split at h1
        · split at h1
          · cases h1; exact ⟨rfl, rfl⟩
          · obtain ⟨w, _, h1⟩ := bind_ok_iff.1 h1
            cases h1; exact ⟨rfl, rfl⟩
        · split at h1
          · cases h1; exact ⟨rfl, rfl⟩
          · obtain ⟨w, _, h1⟩ := bind_ok_iff.1 h1
            cases h1; exact ⟨rfl, rfl⟩
      split at h
      · cases h; exact h2
      · cases h; exact h2
    · cases h; exact ⟨rfl, rfl⟩
  refine ⟨hr.M0, by rw [hp.1]; exact hr.pts, by rw [hp.2]; exact hr.frac, ?_⟩
  rcases hr.kind with h0 | ⟨_, hi⟩
  · exact Or.inl h0
  · rw [hc.interp, hc.dual]
    rcases hx with h0 | h0 | ⟨_, h0, _⟩
    · exact Or.inl h0
    · exact Or.inr ⟨Or.inl h0, hi⟩
    · have := h0.update fp h
      exact Or.inr ⟨Or.inr ⟨this.w0, this.w1⟩, hi⟩

theorem readLoop_hushed (hS : SoftSrc S I M) {fuel : Nat} : ∀ {n : Nat} {r : Rd} {s : σ} {o : ReadOut σ}, Hushed M r → Poised fp M r → I s →
    readLoop fp S fuel n r s = .ok o → Hushed M o.r ∧ Poised fp M o.r ∧ I o.s ∧ ∀ f ∈ o.frames, ∀ v ∈ f, Soft M v
  | 0, r, s, o, hr, hx, hs, h => by unfold readLoop at h; cases h; exact ⟨hr, hx, hs, by simp⟩
  | n + 1, r, s, o, hr, hx, hs, h => by
    rw [readLoop_succ] at h
    obtain ⟨r1, h1, h⟩ := bind_ok_iff.1 h
    have k1 : Hushed M r1 ∧ Poised fp M r1 := by
      clear h
      split at h1
      · refine ⟨updateCrossfade_hushed hr hx h1, hx.imp_right (Or.imp (fun k => ?_) fun k => ⟨?_, k.2.1.update fp h1, k.2.2⟩)⟩
        · rw [(updateCrossfade_conf h1).dual]; exact k
        · rw [(updateCrossfade_conf h1).dual]; exact k.1
      · cases h1; exact ⟨hr, hx⟩
    obtain ⟨⟨vs, ok, r2, s2⟩, h2, h⟩ := bind_ok_iff.1 h
    obtain ⟨k2, k3, k4⟩ := readFrame_hushed hS k1.1 hs h2
    have k5 : Poised fp M r2 := by
      rcases k1.2 with k | k | ⟨k, k', k''⟩
      · exact Or.inl k
      · exact Or.inr (Or.inl (by rw [(readFrame_cases h2).1.dual]; exact k))
      · obtain ⟨_, _, e⟩ := readFrame_settled (atEnd_dual k) h2
        exact Or.inr (Or.inr ⟨by rw [e.conf.dual]; exact k, k'.same e, k''⟩)
    simp only at h
    split at h
    · obtain ⟨r3, h5, h⟩ := bind_ok_iff.1 h
      obtain ⟨o2, h3, h⟩ := bind_ok_iff.1 h
      cases h
      have k6 : Poised fp M r3 := by
        rcases k5 with k | k | ⟨k, k', k''⟩
        · exact Or.inl k
        · exact Or.inr (Or.inl (by rw [(stepOn_conf h5).dual]; exact k))
        · exact Or.inr (Or.inr ⟨by rw [(stepOn_conf h5).dual]; exact k, k'.step k'' h5, k''⟩)
      obtain ⟨e1, e4, e2, e3⟩ := readLoop_hushed hS (stepOn_hushed k2 h5) k6 k3 h3
      refine ⟨e1, e4, e2, fun f hf => ?_⟩
      rcases List.mem_cons.1 hf with rfl | hf
      · exact k4
      · exact e3 f hf
    · cases h; exact ⟨k2, k5, k3, by simp⟩

theorem read_hushed (hS : SoftSrc S I M) {fuel n : Nat} {r : Rd} {s : σ} {o : ReadOut σ} (hr : Hushed M r) (hx : Poised fp M r) (hs : I s)
    (h : r.read fp S fuel s n = .ok o) : Hushed M o.r ∧ Poised fp M o.r ∧ I o.s ∧ ∀ f ∈ o.frames, ∀ v ∈ f, Soft M v := by
  unfold Rd.read at h
  split at h
  · cases h; exact ⟨hr, hx, hs, by simp⟩
  · split at h
    · cases h
    · split at h
      · split at h
        · cases h; exact ⟨hr, hx, hs, by simp⟩
        · cases h
      · exact readLoop_hushed hS hr hx hs h

theorem arraySrc_soft {data : List Int} (h : ∀ v ∈ data, Soft M v) : SoftSrc arraySrc (· = some data) M := by
  rintro s i v s' rfl e
  unfold arraySrc at e
  simp only at e
  split at e
  · split at e
    · rename_i hv
      cases e
      exact ⟨rfl, h _ (List.mem_of_getElem? hv)⟩
    · cases e
  · cases e

/-- The two together. -/
structure Tame (fp : Fp) (M : Int) (r : Rd) : Prop where
  hush : Hushed M r
  poised : Poised fp M r

/-! ## Settings -/

theorem Hushed.rate {r : Rd} (h : Hushed M r) (v : ℚ) : Hushed M (r.setPlaybackRate v) := by
  unfold Rd.setPlaybackRate
  simp only
  repeat' split
  all_goals exact ⟨h.M0, h.pts, h.frac, h.kind⟩

theorem Hushed.reset {r : Rd} (h : Hushed M r) : Hushed M r.reset := by
  refine ⟨h.M0, fun c => ?_, h.frac, h.kind.imp_right fun k => ⟨Or.inr ⟨le_rfl, zero_le_one⟩, k.2⟩⟩
  unfold Rd.reset
  simp only
  split
  · exact h.pts c
  · exact h.pts c

theorem Hushed.stop {r : Rd} (h : Hushed M r) : Hushed M r.stop := ⟨h.M0, h.pts, h.frac, h.kind⟩

theorem Hushed.play {r : Rd} (h : Hushed M r) : Hushed M r.play := by
  have := h.stop.reset
  exact ⟨this.M0, this.pts, this.frac, this.kind⟩

theorem Hushed.channels {r : Rd} (h : Hushed M r) (n : Int) : Hushed M (r.setNumChannels n) := by
  unfold Rd.setNumChannels
  split
  · exact ⟨h.M0, h.pts, h.frac, h.kind⟩
  · exact h

/-! ## Two heads -/

/-- Forwards, and not to and fro. -/
def Onward (r : Rd) : Prop := 0 < r.rate ∧ r.loopType ≠ .pingpong

theorem updateCrossfade_onward {r r' : Rd} (hr : Onward r) (h : updateCrossfade fp r = .ok r') : Onward r' := by
  have hc := updateCrossfade_conf h
  refine ⟨?_, by rw [hc.loopType]; exact hr.2⟩
  have h0 : (fadeEnter r).rate = r.rate ∧ (fadeEnter r).loopType = r.loopType := by
    unfold fadeEnter
    repeat' split
    all_goals exact ⟨rfl, rfl⟩
  obtain ⟨hr1, hr2⟩ := hr
  rw [← h0.1] at hr1
  rw [← h0.2] at hr2
  unfold updateCrossfade at h
  generalize fadeEnter r = q at *
  simp only at h
  split at h
  · obtain ⟨r1, h1, h⟩ := bind_ok_iff.1 h
    have h2 : r1.rate = q.rate ∧ r1.loopType = q.loopType := by
      clear h
      split at h1
      · split at h1
        · cases h1; exact ⟨rfl, rfl⟩
        · obtain ⟨w, _, h1⟩ := bind_ok_iff.1 h1
          cases h1; exact ⟨rfl, rfl⟩
      · split at h1
        · cases h1; exact ⟨rfl, rfl⟩
        · obtain ⟨w, _, h1⟩ := bind_ok_iff.1 h1
          cases h1; exact ⟨rfl, rfl⟩
    split at h
    · rename_i hp
      rw [h2.2] at hp
      simp [hr2] at hp
    · cases h; rw [h2.1]; exact hr1
  · cases h; exact hr1

theorem readLoop_onward {fuel : Nat} : ∀ {n : Nat} {r : Rd} {s : σ} {o : ReadOut σ}, r.dual = true → Onward r → readLoop fp S fuel n r s = .ok o → Onward o.r
  | 0, r, s, o, _, hr, h => by unfold readLoop at h; cases h; exact hr
  | n + 1, r, s, o, hd, hr, h => by
    rw [readLoop_succ] at h
    rw [if_pos hd] at h
    obtain ⟨r0, h0, h⟩ := bind_ok_iff.1 h
    have k0 := updateCrossfade_onward hr h0
    have d0 : r0.dual = true := by rw [(updateCrossfade_conf h0).dual]; exact hd
    obtain ⟨⟨vs, ok, r1, s1⟩, h1, h⟩ := bind_ok_iff.1 h
    obtain ⟨c, _, e⟩ := readFrame_settled (atEnd_dual d0) h1
    have k1 : Onward r1 := by rw [e]; exact k0
    subst c
    simp only [if_true] at h
    obtain ⟨r2, h2, h⟩ := bind_ok_iff.1 h
    obtain ⟨o2, h3, h⟩ := bind_ok_iff.1 h
    have k2 : Onward r2 := by obtain ⟨p, rfl⟩ := stepOn_inv h2; exact k1
    have k3 := readLoop_onward (by rw [(stepOn_conf h2).dual, e.conf.dual]; exact d0) k2 h3
    cases h
    exact k3

theorem read_onward {fuel n : Nat} {r : Rd} {s : σ} {o : ReadOut σ} (hd : r.dual = true) (hr : Onward r) (h : r.read fp S fuel s n = .ok o) : Onward o.r := by
  unfold Rd.read at h
  split at h
  · cases h; exact hr
  · split at h
    · cases h
    · split at h
      · split at h
        · cases h; exact hr
        · cases h
      · exact readLoop_onward hd hr h

theorem setPlaybackRate_moves (r : Rd) (v : ℚ) : ∃ p, r.setPlaybackRate v = { r with rate := v, pos1 := p } := by
  unfold Rd.setPlaybackRate
  simp only
  repeat' split
  all_goals exact ⟨_, rfl⟩

theorem Poised.rate {r : Rd} (h : Poised fp M r) {v : ℚ} (hv : M = 0 ∨ r.dual = false ∨ Onward r ∧ 0 < v) : Poised fp M (r.setPlaybackRate v) := by
  obtain ⟨p, e⟩ := setPlaybackRate_moves r v
  rw [e]
  rcases h with h | h | ⟨hd, h, hfp⟩
  · exact Or.inl h
  · exact Or.inr (Or.inl h)
  · rcases hv with hv | hv | ⟨⟨w1, w2⟩, w3⟩
    · exact Or.inl hv
    · exact Or.inr (Or.inl hv)
    · refine Or.inr (Or.inr ⟨hd, ?_, hfp⟩)
      have hu : ∀ q : Rd, q.loopType ≠ .pingpong → 0 < q.rate → q.up = true := fun q h1 h2 => by unfold Rd.up; simp [h1, h2]
      refine ⟨h.nch, h.header0, h.A0, h.AE, h.D1, h.fits, h.flt, h.frac, fun hc _ => h.up hc (hu r w2 w1), fun _ hx => ?_, h.w0, h.w1⟩
      rw [hu { r with rate := v, pos1 := p } w2 w3] at hx
      cases hx

theorem Poised.stop {r : Rd} (h : Poised fp M r) : Poised fp M r.stop := by
  rcases h with h | h | ⟨hd, h, hfp⟩
  · exact Or.inl h
  · exact Or.inr (Or.inl h)
  · exact Or.inr (Or.inr ⟨hd, ⟨h.nch, h.header0, h.A0, h.AE, h.D1, h.fits, h.flt, h.frac, h.up, h.down, h.w0, h.w1⟩, hfp⟩)

/-- One head stays one head, and two going onward go onward. -/
def Holds (r r' : Rd) : Prop := r'.dual = r.dual ∧ (r.dual = true → Onward r → Onward r')

theorem Holds.refl (r : Rd) : Holds r r := ⟨rfl, fun _ h => h⟩

/-- The speeds to come do no harm. -/
def Gentle (M : Int) (r : Rd) (speeds : ℚ → Prop) : Prop := M = 0 ∨ r.dual = false ∨ (Onward r ∧ ∀ v, speeds v → 0 < v) ∨ ∀ v, ¬ speeds v

theorem Gentle.mono {r r' : Rd} {s t : ℚ → Prop} (h : Gentle M r s) (hr : Holds r r') (hst : ∀ v, t v → s v) : Gentle M r' t := by
  rcases h with h | h | ⟨h, h'⟩ | h
  · exact Or.inl h
  · exact Or.inr (Or.inl (hr.1.trans h))
  · cases hd : r.dual with
    | false => exact Or.inr (Or.inl (hr.1.trans hd))
    | true => exact Or.inr (Or.inr (Or.inl ⟨hr.2 hd h, fun v hv => h' v (hst v hv)⟩))
  · exact Or.inr (Or.inr (Or.inr fun v hv => h v (hst v hv)))

theorem Gentle.speed {r : Rd} {s t : ℚ → Prop} (h : Gentle M r s) {v : ℚ} (hv : s v) (hst : ∀ v, t v → s v) : Gentle M (r.setPlaybackRate v) t ∧ (M = 0 ∨ r.dual = false ∨ Onward r ∧ 0 < v) := by
  obtain ⟨p, e⟩ := setPlaybackRate_moves r v
  rw [e]
  rcases h with h | h | ⟨h, h'⟩ | h
  · exact ⟨Or.inl h, Or.inl h⟩
  · exact ⟨Or.inr (Or.inl h), Or.inr (Or.inl h)⟩
  · exact ⟨Or.inr (Or.inr (Or.inl ⟨⟨h' v hv, h.2⟩, fun w hw => h' w (hst w hw)⟩)), Or.inr (Or.inr ⟨h, h' v hv⟩)⟩
  · exact absurd hv (h v)

theorem Tame.stop {r : Rd} (h : Tame fp M r) : Tame fp M r.stop := ⟨h.hush.stop, h.poised.stop⟩

theorem Hushed.set {r : Rd} (h : Hushed M r) {s : Setting} (hs : M = 0 ∨ s ≠ .dual true ∧ s ≠ .interpolation true) : Hushed M (r.set s) := by
  cases s with
  | speed v => exact h.rate v
  | dual b =>
    refine ⟨h.M0, h.pts, h.frac, ?_⟩
    rcases hs with rfl | ⟨hs, _⟩
    · exact Or.inl rfl
    · cases b with
      | true => exact absurd rfl hs
      | false => exact h.kind.imp_right fun k => ⟨Or.inl rfl, k.2⟩
  | interpolation b =>
    refine ⟨h.M0, h.pts, h.frac, ?_⟩
    rcases hs with rfl | ⟨_, hs⟩
    · exact Or.inl rfl
    · cases b with
      | true => exact absurd rfl hs
      | false => exact h.kind.imp_right fun k => ⟨k.1, by simp [Rd.set, Rd.setInterp]⟩
  | _ => exact ⟨h.M0, h.pts, h.frac, h.kind⟩

theorem Hushed.cmd {r : Rd} (h : Hushed M r) {c : Cmd} (hs : M = 0 ∨ c ≠ .interp .quadratic) : Hushed M (c.run r) := by
  cases c with
  | rate v => exact h.rate v
  | interp t =>
    refine ⟨h.M0, h.pts, h.frac, ?_⟩
    rcases hs with rfl | hs
    · exact Or.inl rfl
    · exact h.kind.imp_right fun k => ⟨k.1, fun e => hs (by rw [show t = .quadratic from e])⟩
  | play => exact h.play
  | _ => exact ⟨h.M0, h.pts, h.frac, h.kind⟩

end TVP
