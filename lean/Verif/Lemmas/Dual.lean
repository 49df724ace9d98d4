import Verif.Lemmas.Fade

/-!
# Dual-head playback is always defined
-/

namespace TVP

variable {σ : Type} {S : Src σ} {I : σ → Prop} {P : Int → Prop} {val : Int → Int}

/-- `stepOn` for an arbitrary rate, fading or not. -/
theorem stepOn_both (fp : Fp) (hfp : Representable fp) {r : Rd} {R : Int} (hR : |r.rate| ≤ R) (hR2 : R ≤ 2 ^ 30)
    (hf : IsFloat 53 (-1074) r.rem) (h1 : |r.rem| < 1)
    (hfit : ∀ δ : Int, |δ| ≤ R + 1 → (0 ≤ r.rate → 0 ≤ δ) → (r.rate ≤ 0 → δ ≤ 0) →
      InI32 (δ * r.nch) ∧ InI32 (r.pos1 + δ * r.nch))
    (hfit2 : r.cfOn = true → ∀ δ : Int, |δ| ≤ R + 1 → InI32 (r.pos2 + δ * r.nch)) :
    ∃ (δ : Int) (f : ℚ), stepOn fp r = .ok { r with
        rem := f
        pos1 := r.pos1 + δ * r.nch
        pos2 := if r.cfOn then (if r.loopType = .pingpong then r.pos2 - δ * r.nch else r.pos2 + δ * r.nch) else r.pos2 } ∧
      |δ| ≤ R + 1 ∧ (0 ≤ r.rate → 0 ≤ δ) ∧ (r.rate ≤ 0 → δ ≤ 0) ∧ IsFloat 53 (-1074) f ∧ |f| < 1 := by
  cases hc : r.cfOn
  · obtain ⟨δ, f, e, k⟩ := stepOn_any fp hfp hR hR2 hf h1 hc hfit
    refine ⟨δ, f, ?_, k⟩
    rw [e]; simp [hc]
  · obtain ⟨δ, f, e, k⟩ := stepOn_any fp hfp (r := { r with cfOn := false }) hR hR2 hf h1 rfl hfit
    refine ⟨δ, f, ?_, k⟩
    have g := hfit2 hc
    unfold stepOn at e
    obtain ⟨d, e1, e⟩ := bind_ok_iff.1 e
    obtain ⟨st, e2, e⟩ := bind_ok_iff.1 e
    obtain ⟨p1, e3, e⟩ := bind_ok_iff.1 e
    have x2 := chkI32_inv e2
    have x3 := chkI32_inv e3
    simp only [Bool.false_eq_true, if_false, pure_eq_ok, Except.ok.injEq, Rd.mk.injEq] at e
    simp only at e1 e2 e3 x2 x3
    have y1 : fp.d.rnd (fp.d.rnd (r.rem + r.rate) - d) = f := e.2.2.2.2.1
    have y2 : p1 = r.pos1 + δ * r.nch := e.2.2.2.2.2.2.2.1
    have y3 : st = δ * r.nch := by omega
    subst x2
    rw [y3] at e2 e3
    rw [y2] at e3
    unfold stepOn
    simp only [e1, ok_bind, y3, e2, e3, hc, if_true, y1]
    have hq : chkI32 (if r.loopType = .pingpong then r.pos2 - δ * r.nch else r.pos2 + δ * r.nch) =
        .ok (if r.loopType = .pingpong then r.pos2 - δ * r.nch else r.pos2 + δ * r.nch) := by
      apply chkI32_ok
      split
      · have := g (-δ) (by rw [abs_neg]; exact k.1)
        rw [neg_mul, ← sub_eq_add_neg] at this; exact this
      · exact g δ k.1
    rw [hq]; rfl

/-- A dual-head reader: first head at frame `q1`, second (during a fade) at frame `q2`.  `R` bounds the rate; outside a
fade the first head is within `[Lo, Hi]`, and a fade adds at most its own length to that. -/
structure Dual (r : Rd) (R Lo Hi q1 q2 : Int) : Prop where
  dual : r.dual = true
  nch : 0 < r.nch
  chans : r.interp ≠ .none → r.nch ≤ 8
  header0 : 0 ≤ r.header
  rateR : |r.rate| ≤ R
  rate0 : r.rate ≠ 0
  R30 : R ≤ 2 ^ 30
  flt : IsFloat 53 (-1074) r.rem
  frac : |r.rem| < 1
  A0 : 0 ≤ r.loopStart
  AE : r.loopStart ≤ r.loopFinish
  D1 : 1 ≤ r.cfDur
  loA : Lo ≤ r.loopStart - R - 1
  loE : Lo ≤ r.loopFinish - r.cfDur - 2 * R - 2
  hiE : r.loopFinish + R + 1 ≤ Hi
  hiA : r.loopStart + r.cfDur + 2 * R + 2 ≤ Hi
  neg : -Hi ≤ Lo
  fits : r.header + r.nch * (Hi + r.cfDur + 2 * R + 8) ≤ 2147483647
  pos1 : r.pos1 = r.header + q1 * r.nch
  pos2 : r.cfOn = true → r.pos2 = r.header + q2 * r.nch
  w0 : 0 ≤ r.crossfade
  w1 : r.crossfade ≤ 1
  off : r.cfOn = false → Lo ≤ q1 ∧ q1 ≤ Hi
  up : r.cfOn = true → r.up = true → r.loopStart ≤ q2 ∧ q2 ≤ r.loopStart + r.cfDur + R + 1 ∧
    (0 ≤ r.rate → Lo ≤ q1 ∧ q1 ≤ Hi + (q2 - r.loopStart)) ∧ (r.rate ≤ 0 → Lo - (q2 - r.loopStart) ≤ q1 ∧ q1 ≤ Hi)
  down : r.cfOn = true → r.up = false → q2 ≤ r.loopFinish ∧ r.loopFinish - r.cfDur - R - 1 ≤ q2 ∧
    (0 ≤ r.rate → Lo ≤ q1 ∧ q1 ≤ Hi + (r.loopFinish - q2)) ∧ (r.rate ≤ 0 → Lo - (r.loopFinish - q2) ≤ q1 ∧ q1 ≤ Hi)

/-- What holds in addition when a frame is read. -/
structure DualAt (r : Rd) (R Lo Hi q1 q2 : Int) : Prop where
  base : Dual r R Lo Hi q1 q2
  up : r.cfOn = true → r.up = true → q2 ≤ r.loopStart + r.cfDur
  down : r.cfOn = true → r.up = false → r.loopFinish - r.cfDur ≤ q2
  off : r.cfOn = false → (0 < r.rate → q1 ≤ Hi - R - 1) ∧ (r.rate < 0 → Lo + R + 1 ≤ q1)

theorem Dual.R0 {r : Rd} {R Lo Hi q1 q2 : Int} (h : Dual r R Lo Hi q1 q2) : 0 ≤ R := by
  have : (0 : ℚ) ≤ R := le_trans (abs_nonneg _) h.rateR
  exact_mod_cast this

theorem Dual.pos {r : Rd} {R Lo Hi q1 q2 x : Int} (h : Dual r R Lo Hi q1 q2) (h1 : -(Hi + r.cfDur + 2 * R + 8) ≤ x)
    (h2 : x ≤ Hi + r.cfDur + 2 * R + 8) : r.posOf x = r.header + x * r.nch := by
  have f := frame_fits' h.header0 (le_of_lt h.nch) h1 h2 h.fits
  exact posOf_eq ⟨by have := h.header0; omega, f.2⟩

/-- Entering the zone. -/
theorem Dual.enter {r : Rd} {R Lo Hi q1 q2 : Int} (h : Dual r R Lo Hi q1 q2) :
    ∃ q2', Dual (fadeEnter r) R Lo Hi q1 q2' ∧
      ((fadeEnter r).cfOn = false → (0 < r.rate → q1 ≤ Hi - R - 1) ∧ (r.rate < 0 → Lo + R + 1 ≤ q1)) ∧
      (fadeEnter r).rate = r.rate := by
  have hR := h.R0
  have hA := h.A0
  have hE := h.AE
  have hD := h.D1
  have l1 := h.loA
  have l2 := h.loE
  have l3 := h.hiE
  have l4 := h.hiA
  have hn := h.neg
  cases hc : r.cfOn
  · obtain ⟨o1, o2⟩ := h.off hc
    rcases lt_or_gt_of_ne h.rate0 with hr | hr
    · unfold fadeEnter
      rw [if_neg (not_le.2 hr)]
      by_cases hz : r.pos1 ≤ r.posOf (r.loopStart + r.cfDur)
      · rw [if_pos (by simp [hc, hz])]
        by_cases hl : r.loopType = .pingpong
        · refine ⟨r.loopStart, ?_, fun x => (by cases x), rfl⟩
          exact ⟨h.dual, h.nch, h.chans, h.header0, h.rateR, h.rate0, h.R30, h.flt, h.frac, hA, hE, hD, l1, l2, l3, l4, hn,
            h.fits, h.pos1, fun _ => by simp only [hl, if_true]; exact h.pos (by omega) (by omega), h.w0, h.w1,
            fun x => (by cases x),
            fun _ _ => ⟨by simp only; omega, by simp only; omega, fun k => absurd hr (not_lt.2 k), fun _ => ⟨by simp only; omega, o2⟩⟩,
            fun _ x => by unfold Rd.up at x; simp [hl] at x; linarith⟩
        · refine ⟨r.loopFinish, ?_, fun x => (by cases x), rfl⟩
          exact ⟨h.dual, h.nch, h.chans, h.header0, h.rateR, h.rate0, h.R30, h.flt, h.frac, hA, hE, hD, l1, l2, l3, l4, hn,
            h.fits, h.pos1, fun _ => by simp only [if_neg hl]; exact h.pos (by omega) (by omega), h.w0, h.w1,
            fun x => (by cases x),
            fun _ x => by unfold Rd.up at x; simp [hl] at x; linarith,
            fun _ _ => ⟨by simp only; omega, by simp only; omega, fun k => absurd hr (not_lt.2 k), fun _ => ⟨by simp only; omega, o2⟩⟩⟩
      · rw [if_neg (by simp [hz])]
        refine ⟨q2, h, fun _ => ⟨fun k => absurd k (not_lt.2 (le_of_lt hr)), fun _ => ?_⟩, rfl⟩
        rw [h.pos (by omega) (by omega), h.pos1, not_le, mul_lt_iff h.nch] at hz
        omega
    · unfold fadeEnter
      rw [if_pos (le_of_lt hr)]
      by_cases hz : r.pos1 ≥ r.posOf (r.loopFinish - r.cfDur)
      · rw [if_pos (by simp [hc]; exact hz)]
        by_cases hl : r.loopType = .pingpong
        · refine ⟨r.loopFinish, ?_, fun x => (by cases x), rfl⟩
          exact ⟨h.dual, h.nch, h.chans, h.header0, h.rateR, h.rate0, h.R30, h.flt, h.frac, hA, hE, hD, l1, l2, l3, l4, hn,
            h.fits, h.pos1, fun _ => by simp only [hl, if_true]; exact h.pos (by omega) (by omega), h.w0, h.w1,
            fun x => (by cases x),
            fun _ x => by unfold Rd.up at x; simp [hl] at x; linarith,
            fun _ _ => ⟨by simp only; omega, by simp only; omega, fun _ => ⟨o1, by simp only; omega⟩, fun k => absurd hr (not_lt.2 k)⟩⟩
        · refine ⟨r.loopStart, ?_, fun x => (by cases x), rfl⟩
          exact ⟨h.dual, h.nch, h.chans, h.header0, h.rateR, h.rate0, h.R30, h.flt, h.frac, hA, hE, hD, l1, l2, l3, l4, hn,
            h.fits, h.pos1, fun _ => by simp only [if_neg hl]; exact h.pos (by omega) (by omega), h.w0, h.w1,
            fun x => (by cases x),
            fun _ _ => ⟨by simp only; omega, by simp only; omega, fun _ => ⟨o1, by simp only; omega⟩, fun k => absurd hr (not_lt.2 k)⟩,
            fun _ x => by unfold Rd.up at x; simp [hl] at x; linarith⟩
      · rw [if_neg (by simp; intro _; exact not_le.1 hz)]
        refine ⟨q2, h, fun _ => ⟨fun _ => ?_, fun k => absurd k (not_lt.2 (le_of_lt hr))⟩, rfl⟩
        rw [h.pos (by omega) (by omega), h.pos1, ge_iff_le, not_le, mul_lt_iff h.nch] at hz
        omega
  · have he : fadeEnter r = r := by
      unfold fadeEnter
      simp [hc]
    rw [he]
    exact ⟨q2, h, fun x => by rw [hc] at x; (cases x), rfl⟩

theorem Dual.s2s {r : Rd} {R Lo Hi q1 q2 x : Int} (h : Dual r R Lo Hi q1 q2) (h1 : 0 ≤ x)
    (h2 : x ≤ Hi + r.cfDur + 2 * R + 8) : r.s2s x = r.header + x * r.nch := by
  have f := frame_fits h.header0 (le_of_lt h.nch) h1 h2 h.fits
  unfold Rd.s2s
  exact u32_of_in ⟨by have := h.header0; omega, by omega⟩

/-- Fading on, or leaving the fade. -/
theorem Dual.go (fp : Fp) {r : Rd} {R Lo Hi q1 q2 : Int} (h : Dual r R Lo Hi q1 q2) (hc : r.cfOn = true) :
    ∃ r' q1', fadeGo fp r = .ok r' ∧ DualAt r' R Lo Hi q1' q2 := by
  have hR := h.R0
  have hA := h.A0
  have hE := h.AE
  have hD := h.D1
  have l1 := h.loA
  have l2 := h.loE
  have l3 := h.hiE
  have l4 := h.hiA
  have hn := h.neg
  have hH := h.header0
  have hDn : r.cfDur * r.nch ≤ 2147483647 := by
    have := frame_fits hH (le_of_lt h.nch) (show 0 ≤ r.cfDur by omega)
      (show r.cfDur ≤ Hi + r.cfDur + 2 * R + 8 by omega) h.fits
    omega
  have hn1 : r.nch ≤ r.cfDur * r.nch := by
    have := mul_le_mul_of_nonneg_right hD (le_of_lt h.nch); omega
  unfold fadeGo
  cases hu : r.up
  · obtain ⟨u1, u2, u3, u4⟩ := h.down hc hu
    simp only [Bool.false_eq_true, if_false]
    have hp2 := h.pos2 hc
    have hpE := h.pos (x := r.loopFinish - r.cfDur) (by omega) (by omega)
    by_cases hz' : q2 < r.loopFinish - r.cfDur
    · rw [if_pos (show r.pos2 < _ by rw [hp2, hpE]; exact (mul_lt_iff h.nch _).2 hz')]
      by_cases hl : r.loopType = .pingpong
      · have hr : 0 < r.rate := by unfold Rd.up at hu; simpa [hl] using hu
        refine ⟨{ r with pos1 := r.pos2, cfOn := false, rate := -r.rate }, q2, by simp only [pure_eq_ok, ok_bind]; rw [if_pos (by simp [hl])], ?_⟩
        refine ⟨⟨h.dual, h.nch, h.chans, hH, by simp only [abs_neg]; exact h.rateR, by simp only; linarith, h.R30, h.flt,
          h.frac, hA, hE, hD, l1, l2, l3, l4, hn, h.fits, hp2, fun x => (by cases x), h.w0, h.w1, fun _ => ⟨by omega, by omega⟩,
          fun x => (by cases x), fun x => (by cases x)⟩, fun x => (by cases x), fun x => (by cases x), fun _ => ⟨fun x => ?_, fun _ => ?_⟩⟩
        · simp only at x; linarith
        · omega
      · have hr : r.rate < 0 := by
          have : r.rate ≤ 0 := by unfold Rd.up at hu; simpa [hl] using hu
          exact lt_of_le_of_ne this h.rate0
        refine ⟨{ r with pos1 := r.pos2, cfOn := false }, q2, by simp only [pure_eq_ok, ok_bind]; rw [if_neg (by simp [hl])], ?_⟩
        refine ⟨⟨h.dual, h.nch, h.chans, hH, h.rateR, h.rate0, h.R30, h.flt,
          h.frac, hA, hE, hD, l1, l2, l3, l4, hn, h.fits, hp2, fun x => (by cases x), h.w0, h.w1, fun _ => ⟨by omega, by omega⟩,
          fun x => (by cases x), fun x => (by cases x)⟩, fun x => (by cases x), fun x => (by cases x), fun _ => ⟨fun x => ?_, fun _ => ?_⟩⟩
        · simp only at x; linarith
        · omega
    · rw [if_neg (show ¬ (r.pos2 < _) by rw [hp2, hpE]; exact fun k => hz' ((mul_lt_iff h.nch _).1 k))]
      have m1 : q2 * r.nch ≤ r.loopFinish * r.nch := mul_le_mul_of_nonneg_right u1 (le_of_lt h.nch)
      have m2 : (r.loopFinish - r.cfDur) * r.nch ≤ q2 * r.nch := mul_le_mul_of_nonneg_right (by omega) (le_of_lt h.nch)
      have e : (r.loopFinish - r.cfDur) * r.nch = r.loopFinish * r.nch - r.cfDur * r.nch := by ring
      rw [h.s2s (x := r.loopFinish) (by omega) (by omega)]
      obtain ⟨w, k1, k2, k3, _⟩ := fadeWeight_range fp (r := r) (d := r.header + r.loopFinish * r.nch - r.pos2) h.nch
        (by omega) hD (by omega) (by omega) (by omega)
      rw [k1]
      refine ⟨{ r with crossfade := w }, q1, by simp only [pure_eq_ok, ok_bind]; rw [if_neg (by simp [hc])], ?_⟩
      exact ⟨⟨h.dual, h.nch, h.chans, hH, h.rateR, h.rate0, h.R30, h.flt,
          h.frac, hA, hE, hD, l1, l2, l3, l4, hn, h.fits, h.pos1, fun _ => hp2, k2, k3, fun x => h.off (by simpa using x),
          h.up, h.down⟩, fun _ x => (by change r.up = true at x; rw [hu] at x; cases x), fun _ _ => by simp only; omega,
          fun x => (by change r.cfOn = false at x; rw [hc] at x; cases x)⟩
  · obtain ⟨u1, u2, u3, u4⟩ := h.up hc hu
    simp only [if_true]
    have hp2 := h.pos2 hc
    have hpE := h.pos (x := r.loopStart + r.cfDur) (by omega) (by omega)
    by_cases hz' : r.loopStart + r.cfDur < q2
    · rw [if_pos (show r.pos2 > _ by rw [hp2, hpE]; exact (mul_lt_iff h.nch _).2 hz')]
      by_cases hl : r.loopType = .pingpong
      · have hr : r.rate < 0 := by
          have : r.rate ≤ 0 := by unfold Rd.up at hu; simpa [hl] using hu
          exact lt_of_le_of_ne this h.rate0
        refine ⟨{ r with pos1 := r.pos2, cfOn := false, rate := -r.rate }, q2, by simp only [pure_eq_ok, ok_bind]; rw [if_pos (by simp [hl])], ?_⟩
        refine ⟨⟨h.dual, h.nch, h.chans, hH, by simp only [abs_neg]; exact h.rateR, by simp only; linarith, h.R30, h.flt,
          h.frac, hA, hE, hD, l1, l2, l3, l4, hn, h.fits, hp2, fun x => (by cases x), h.w0, h.w1, fun _ => ⟨by omega, by omega⟩,
          fun x => (by cases x), fun x => (by cases x)⟩, fun x => (by cases x), fun x => (by cases x), fun _ => ⟨fun _ => ?_, fun x => ?_⟩⟩
        · omega
        · simp only at x; linarith
      · have hr : 0 < r.rate := by unfold Rd.up at hu; simpa [hl] using hu
        refine ⟨{ r with pos1 := r.pos2, cfOn := false }, q2, by simp only [pure_eq_ok, ok_bind]; rw [if_neg (by simp [hl])], ?_⟩
        refine ⟨⟨h.dual, h.nch, h.chans, hH, h.rateR, h.rate0, h.R30, h.flt,
          h.frac, hA, hE, hD, l1, l2, l3, l4, hn, h.fits, hp2, fun x => (by cases x), h.w0, h.w1, fun _ => ⟨by omega, by omega⟩,
          fun x => (by cases x), fun x => (by cases x)⟩, fun x => (by cases x), fun x => (by cases x), fun _ => ⟨fun _ => ?_, fun x => ?_⟩⟩
        · omega
        · simp only at x; linarith
    · rw [if_neg (show ¬ (r.pos2 > _) by rw [hp2, hpE]; exact fun k => hz' ((mul_lt_iff h.nch _).1 k))]
      have m1 : r.loopStart * r.nch ≤ q2 * r.nch := mul_le_mul_of_nonneg_right u1 (le_of_lt h.nch)
      have m2 : q2 * r.nch ≤ (r.loopStart + r.cfDur) * r.nch := mul_le_mul_of_nonneg_right (by omega) (le_of_lt h.nch)
      have e : (r.loopStart + r.cfDur) * r.nch = r.loopStart * r.nch + r.cfDur * r.nch := by ring
      rw [h.s2s (x := r.loopStart) (by omega) (by omega)]
      obtain ⟨w, k1, k2, k3, _⟩ := fadeWeight_range fp (r := r) (d := r.pos2 - (r.header + r.loopStart * r.nch)) h.nch
        (by omega) hD (by omega) (by omega) (by omega)
      rw [k1]
      refine ⟨{ r with crossfade := w }, q1, by simp only [pure_eq_ok, ok_bind]; rw [if_neg (by simp [hc])], ?_⟩
      exact ⟨⟨h.dual, h.nch, h.chans, hH, h.rateR, h.rate0, h.R30, h.flt,
          h.frac, hA, hE, hD, l1, l2, l3, l4, hn, h.fits, h.pos1, fun _ => hp2, k2, k3, fun x => h.off (by simpa using x),
          h.up, h.down⟩, fun _ _ => by simp only; omega, fun _ x => (by change r.up = false at x; rw [hu] at x; cases x),
          fun x => (by change r.cfOn = false at x; rw [hc] at x; cases x)⟩

theorem Dual.update (fp : Fp) {r : Rd} {R Lo Hi q1 q2 : Int} (h : Dual r R Lo Hi q1 q2) :
    ∃ r' q1' q2', updateCrossfade fp r = .ok r' ∧ DualAt r' R Lo Hi q1' q2' := by
  obtain ⟨q2', he, hoff, hrate⟩ := h.enter
  rw [updateCrossfade_eq]
  cases hc : (fadeEnter r).cfOn
  · refine ⟨fadeEnter r, q1, q2', rfl, he, fun x => ?_, fun x => ?_, fun x => ?_⟩
    · rw [hc] at x; cases x
    · rw [hc] at x; cases x
    · rw [hrate]; exact hoff x
  · obtain ⟨r', q1', k1, k2⟩ := he.go fp hc
    exact ⟨r', q1', q2', k1, k2⟩

theorem DualAt.step (fp : Fp) (hfp : Representable fp) {r : Rd} {R Lo Hi q1 q2 : Int} (h : DualAt r R Lo Hi q1 q2) :
    ∃ r' q1' q2', stepOn fp r = .ok r' ∧ Dual r' R Lo Hi q1' q2' := by
  have b := h.base
  have hR := b.R0
  have hA := b.A0
  have hE := b.AE
  have hD := b.D1
  have l1 := b.loA
  have l2 := b.loE
  have l3 := b.hiE
  have l4 := b.hiA
  have hn := b.neg
  have hH := b.header0
  have hq1 : Lo - r.cfDur ≤ q1 ∧ q1 ≤ Hi + r.cfDur := by
    cases hc : r.cfOn
    · have := b.off hc; omega
    · cases hu : r.up
      · obtain ⟨u1, u2, u3, u4⟩ := b.down hc hu
        have := h.down hc hu
        rcases le_total 0 r.rate with hr | hr
        · have := u3 hr; omega
        · have := u4 hr; omega
      · obtain ⟨u1, u2, u3, u4⟩ := b.up hc hu
        have := h.up hc hu
        rcases le_total 0 r.rate with hr | hr
        · have := u3 hr; omega
        · have := u4 hr; omega
  obtain ⟨δ, f, hst, hd, s1, s2, hf, hf1⟩ := stepOn_both fp hfp b.rateR b.R30 b.flt b.frac
    (by
      intro δ hd _ _
      obtain ⟨d1, d2⟩ := abs_le.1 hd
      have f1 := frame_fits' hH (le_of_lt b.nch) (show -(Hi + r.cfDur + 2 * R + 8) ≤ δ by omega)
        (show δ ≤ Hi + r.cfDur + 2 * R + 8 by omega) b.fits
      have f2 := frame_fits' hH (le_of_lt b.nch) (show -(Hi + r.cfDur + 2 * R + 8) ≤ q1 + δ by omega)
        (show q1 + δ ≤ Hi + r.cfDur + 2 * R + 8 by omega) b.fits
      have e : r.header + (q1 + δ) * r.nch = r.pos1 + δ * r.nch := by rw [b.pos1]; ring
      exact ⟨by unfold InI32; omega, by rw [← e]; unfold InI32; omega⟩)
    (by
      intro hc δ hd
      obtain ⟨d1, d2⟩ := abs_le.1 hd
      have hq2 : Lo ≤ q2 ∧ q2 ≤ Hi := by
        cases hu : r.up
        · have := b.down hc hu; have := h.down hc hu; omega
        · have := b.up hc hu; have := h.up hc hu; omega
      have f2 := frame_fits' hH (le_of_lt b.nch) (show -(Hi + r.cfDur + 2 * R + 8) ≤ q2 + δ by omega)
        (show q2 + δ ≤ Hi + r.cfDur + 2 * R + 8 by omega) b.fits
      have e : r.header + (q2 + δ) * r.nch = r.pos2 + δ * r.nch := by rw [b.pos2 hc]; ring
      rw [← e]; unfold InI32; omega)
  obtain ⟨d1, d2⟩ := abs_le.1 hd
  refine ⟨_, q1 + δ, (if r.loopType = .pingpong then q2 - δ else q2 + δ), hst, ?_⟩
  refine ⟨b.dual, b.nch, b.chans, hH, b.rateR, b.rate0, b.R30, hf, hf1, hA, hE, hD, l1, l2, l3, l4, hn, b.fits,
    by simp only; rw [b.pos1]; ring, fun hc => ?_, b.w0, b.w1, fun hc => ?_, fun hc hu => ?_, fun hc hu => ?_⟩
  · simp only at hc ⊢
    rw [hc, if_pos rfl, b.pos2 hc]
    split <;> ring
  · simp only at hc
    have o := b.off hc
    have o2 := h.off hc
    rcases lt_or_gt_of_ne b.rate0 with hr | hr
    · have := s2 (le_of_lt hr); have := o2.2 hr; omega
    · have := s1 (le_of_lt hr); have := o2.1 hr; omega
  · simp only at hc ⊢
    change r.up = true at hu
    obtain ⟨u1, u2, u3, u4⟩ := b.up hc hu
    have u5 := h.up hc hu
    unfold Rd.up at hu
    by_cases hl : r.loopType = .pingpong
    · have hr : r.rate ≤ 0 := by simpa [hl] using hu
      have := s2 hr
      have := u4 hr
      rw [if_pos hl]
      refine ⟨by omega, by omega, fun k => ?_, fun _ => ⟨by omega, by omega⟩⟩
      exact absurd (le_antisymm hr k) b.rate0
    · have hr : 0 < r.rate := by simpa [hl] using hu
      have := s1 (le_of_lt hr)
      have := u3 (le_of_lt hr)
      rw [if_neg hl]
      exact ⟨by omega, by omega, fun _ => ⟨by omega, by omega⟩, fun k => absurd hr (not_lt.2 k)⟩
  · simp only at hc ⊢
    change r.up = false at hu
    obtain ⟨u1, u2, u3, u4⟩ := b.down hc hu
    have u5 := h.down hc hu
    unfold Rd.up at hu
    by_cases hl : r.loopType = .pingpong
    · have hr : 0 < r.rate := by simpa [hl] using hu
      have := s1 (le_of_lt hr)
      have := u3 (le_of_lt hr)
      rw [if_pos hl]
      exact ⟨by omega, by omega, fun _ => ⟨by omega, by omega⟩, fun k => absurd hr (not_lt.2 k)⟩
    · have hr : r.rate ≤ 0 := by simpa [hl] using hu
      have := s2 hr
      have := u4 hr
      rw [if_neg hl]
      refine ⟨by omega, by omega, fun k => ?_, fun _ => ⟨by omega, by omega⟩⟩
      exact absurd (le_antisymm hr k) b.rate0

/-- The sample `off` frames from frame `q` can be fetched if those frames are served. -/
theorem can_of {H N U q off lo hi : Int} (hH : 0 ≤ H) (hN : 0 < N) (hfit : H + N * U ≤ 2147483647) (hlo : lo ≤ q + off)
    (hhi : q + off < hi) (hU1 : -U ≤ lo) (hU2 : hi ≤ U) (hP : ∀ i, H + lo * N ≤ i → i < H + hi * N → P i)
    {ch : Nat} (hc : (ch : Int) < N) : Can P N (H + q * N) off ch := by
  have e : H + q * N + off * N = H + (q + off) * N := by ring
  have f1 := frame_fits' hH (le_of_lt hN) (show -U ≤ q + off by omega) (show q + off ≤ U by omega) hfit
  have f2 := frame_fits' hH (le_of_lt hN) (show -U ≤ q + off + 1 by omega) (show q + off + 1 ≤ U by omega) hfit
  have e2 : (q + off + 1) * N = (q + off) * N + N := by ring
  have m1 : lo * N ≤ (q + off) * N := mul_le_mul_of_nonneg_right hlo (le_of_lt hN)
  have m2 : (q + off + 1) * N ≤ hi * N := mul_le_mul_of_nonneg_right (by omega) (le_of_lt hN)
  unfold Can
  rw [e]
  exact ⟨by unfold InI32; omega, by unfold InI32; omega, hP _ (by omega) (by omega)⟩

theorem DualAt.frameOk (fp : Fp) {r : Rd} {R Lo Hi q1 q2 : Int} (h : DualAt r R Lo Hi q1 q2)
    (hP : ∀ i, r.header + (Lo - r.cfDur - 3) * r.nch ≤ i → i < r.header + (Hi + r.cfDur + 4) * r.nch → P i) :
    FrameOk fp P r := by
  have b := h.base
  have hR := b.R0
  have hA := b.A0
  have hE := b.AE
  have hD := b.D1
  have l1 := b.loA
  have l2 := b.loE
  have l3 := b.hiE
  have l4 := b.hiA
  have hn := b.neg
  have hH := b.header0
  have hq1 : Lo - r.cfDur ≤ q1 ∧ q1 ≤ Hi + r.cfDur := by
    cases hc : r.cfOn
    · have := b.off hc; omega
    · cases hu : r.up
      · obtain ⟨u1, u2, u3, u4⟩ := b.down hc hu
        have := h.down hc hu
        rcases le_total 0 r.rate with hr | hr
        · have := u3 hr; omega
        · have := u4 hr; omega
      · obtain ⟨u1, u2, u3, u4⟩ := b.up hc hu
        have := h.up hc hu
        rcases le_total 0 r.rate with hr | hr
        · have := u3 hr; omega
        · have := u4 hr; omega
  have hq2 : r.cfOn = true → Lo ≤ q2 ∧ q2 ≤ Hi := by
    intro hc
    cases hu : r.up
    · have := b.down hc hu; have := h.down hc hu; omega
    · have := b.up hc hu; have := h.up hc hu; omega
  have can1 : ∀ (off : Int) (ch : Nat), |off| ≤ 3 → (ch : Int) < r.nch → Can P r.nch r.pos1 off ch := by
    intro off ch ho hc
    obtain ⟨o1, o2⟩ := abs_le.1 ho
    rw [b.pos1]
    exact can_of hH b.nch b.fits (lo := Lo - r.cfDur - 3) (hi := Hi + r.cfDur + 4) (by omega) (by omega) (by omega) (by omega) hP hc
  have can2 : r.cfOn = true → ∀ (off : Int) (ch : Nat), |off| ≤ 3 → (ch : Int) < r.nch → Can P r.nch r.pos2 off ch := by
    intro hcf off ch ho hc
    obtain ⟨o1, o2⟩ := abs_le.1 ho
    have := hq2 hcf
    rw [b.pos2 hcf]
    exact can_of hH b.nch b.fits (lo := Lo - r.cfDur - 3) (hi := Hi + r.cfDur + 4) (by omega) (by omega) (by omega) (by omega) hP hc
  refine ⟨atEnd_dual b.dual, b.frac, ?_, b.w0, b.w1, b.chans, fun ch hc => can1 0 ch (by norm_num) hc,
    fun _ x ch hc => can2 x 0 ch (by norm_num) hc, fun _ x => (by rw [b.dual] at x; cases x),
    fun _ x => (by rw [b.dual] at x; cases x), fun _ => ⟨4, fun _ _ => by omega, fun _ _ => by omega, fun ch hc => ⟨?_, ?_, ?_⟩⟩⟩
  · have := b.rateR
    have h30 : (R : ℚ) ≤ ((2 ^ 30 : Int) : ℚ) := by exact_mod_cast b.R30
    push_cast at h30; linarith
  · intro _ j hj
    exact can1 _ ch (by rw [abs_neg, Nat.abs_cast]; omega) hc
  · intro _ j hj
    exact can1 _ ch (by rw [Nat.abs_cast]; omega) hc
  · intro _ x j hj
    exact can2 x j ch (by push_cast at hj; omega) hc

/-- Dual-head playback: always defined, always full, always 16-bit samples. -/
theorem dual_total (fp : Fp) (hfp : Representable fp) (hS : SrcOk S I P) (fuel : Nat)
    {R Lo Hi : Int} : ∀ (n : Nat) (r : Rd) (q1 q2 : Int) (s : σ), Dual r R Lo Hi q1 q2 → PtsOk r → I s →
      (∀ i, r.header + (Lo - r.cfDur - 3) * r.nch ≤ i → i < r.header + (Hi + r.cfDur + 4) * r.nch → P i) →
      ∃ (fs : List (List Int)) (r' : Rd) (q1' q2' : Int) (s' : σ), readLoop fp S (fuel + 1) n r s = .ok ⟨fs, [], r', s'⟩ ∧
        fs.length = n ∧ (∀ f ∈ fs, (f.length : Int) = r.nch ∧ ∀ v ∈ f, InI16 v) ∧ Dual r' R Lo Hi q1' q2' ∧ PtsOk r' ∧ I s' ∧
        SameConf r r'
  | 0, r, q1, q2, s, h, hp, hs, _ => ⟨[], r, q1, q2, s, rfl, rfl, by simp, h, hp, hs, SameConf.refl r⟩
  | n + 1, r, q1, q2, s, h, hp, hs, hP => by
    obtain ⟨r1, p1, p2, a1, a2⟩ := h.update fp
    have c1 := updateCrossfade_conf a1
    have hp1 : PtsOk r1 := by
      have : r1.pts = r.pts := by
        have e0 : (fadeEnter r).pts = r.pts := by
          unfold fadeEnter
          split <;> split <;> rfl
        rw [updateCrossfade_eq] at a1
        split at a1
        · unfold fadeGo at a1
          obtain ⟨x, y1, y2⟩ := bind_ok_iff.1 a1
          have e1 : x.pts = r.pts := by
            rw [← e0]
            split at y1 <;> split at y1
            · cases y1; rfl
            · obtain ⟨w, _, y1⟩ := bind_ok_iff.1 y1
              cases y1; rfl
            · cases y1; rfl
            · obtain ⟨w, _, y1⟩ := bind_ok_iff.1 y1
              cases y1; rfl
          split at y2 <;> cases y2 <;> exact e1
        · cases a1; exact e0
      intro c; rw [this]; exact hp c
    have hn1 : ((0 + r1.nch.toNat : Nat) : Int) ≤ r1.nch := by have := a2.base.nch; omega
    obtain ⟨vs, r2, s2, b1, b2, b3, b4, b5, b6⟩ := readFrame_ok fp hS fuel r1.nch.toNat 0 r1 s hs hp1
      (a2.frameOk fp (by rw [c1.header, c1.nch, c1.cfDur]; exact hP)) hn1
    have a3 : DualAt r2 R Lo Hi p1 p2 := by
      have x := a2
      obtain ⟨⟨y1, y2, y3, y4, y5, y6, y7, y8, y9, y10, y11, y12, y13, y14, y15, y16, y17, y18, y19, y20, y21, y22, y23, y24, y25⟩, z1, z2, z3⟩ := x
      rw [b5]
      exact ⟨⟨y1, y2, y3, y4, y5, y6, y7, y8, y9, y10, y11, y12, y13, y14, y15, y16, y17, y18, y19, y20, y21, y22, y23, y24, y25⟩, z1, z2, z3⟩
    obtain ⟨r3, k1, k2, d1, d2⟩ := a3.step fp hfp
    have c3 := (c1.trans b5.conf).trans (stepOn_conf d1)
    have hp3 : PtsOk r3 := by
      obtain ⟨pz, hz⟩ := stepOn_inv d1
      intro c; rw [hz]; exact b4 c
    obtain ⟨fs, r', q1', q2', s', e1, e2, e3, e4, e5, e6, e7⟩ := dual_total fp hfp hS fuel n r3 k1 k2 s2 d2 hp3 b6
      (by rw [c3.header, c3.nch, c3.cfDur]; exact hP)
    refine ⟨vs :: fs, r', q1', q2', s', ?_, by simp [e2], ?_, e4, e5, e6, c3.trans e7⟩
    · rw [readLoop_succ, if_pos h.dual, a1]
      simp only [ok_bind, b1, if_true, d1, e1]
    · intro f hf
      rcases List.mem_cons.1 hf with rfl | hf
      · exact ⟨by rw [b2, Int.toNat_of_nonneg (le_of_lt a2.base.nch), c1.nch], b3⟩
      · rw [← c3.nch]; exact e3 f hf

end TVP
