import Verif.Lemmas.Trace
import Verif.Spec.Read

/-!
# Resampling laws
-/

namespace TVP
open Spec

theorem forwardFrames_succ (x r : ℚ) (F : Int) (n : Nat) :
    forwardFrames x r F (n + 1) = if ⌊x⌋ < F then ⌊x⌋ :: forwardFrames (x + r) r F n else [] := by
  unfold forwardFrames
  rw [List.range_succ_eq_map, List.map_cons, List.takeWhile_cons, List.map_map]
  simp only [Nat.cast_zero, zero_mul, add_zero, decide_eq_true_eq]
  split
  · congr 2
    apply List.map_congr_left
    intro k _
    simp only [Function.comp, Nat.succ_eq_add_one]
    congr 1; push_cast; ring
  · rfl

theorem reverseFrames_succ (x r : ℚ) (L : Int) (n : Nat) :
    reverseFrames x r L (n + 1) = if L ≤ ⌈x⌉ then ⌈x⌉ :: reverseFrames (x - r) r L n else [] := by
  unfold reverseFrames
  rw [List.range_succ_eq_map, List.map_cons, List.takeWhile_cons, List.map_map]
  simp only [Nat.cast_zero, zero_mul, sub_zero, decide_eq_true_eq]
  split
  · congr 2
    apply List.map_congr_left
    intro k _
    simp only [Function.comp, Nat.succ_eq_add_one]
    congr 1; push_cast; ring
  · rfl

variable {σ : Type} {S : Src σ} {I : σ → Prop} {P : Int → Prop} {val : Int → Int}

/-- A reader playing forwards without looping, at exact position `x`; `R` bounds the rate. -/
structure Fwd (r : Rd) (p : Nat) (R : Int) (x : ℚ) : Prop where
  plain : Plain r
  loop : r.loopType = .none
  rate0 : 0 ≤ r.rate
  grid : GridRate p r.rate
  xgrid : OnGrid p x
  x0 : 0 ≤ x
  pos : r.pos1 = r.header + ⌊x⌋ * r.nch
  rem : r.rem = x - ⌊x⌋
  header0 : 0 ≤ r.header
  F0 : 0 ≤ r.fileSamples
  rateR : r.rate ≤ R
  fits : r.header + r.nch * (r.fileSamples + R + 1) ≤ 2147483647
  xR : ⌊x⌋ ≤ r.fileSamples + R

theorem Fwd.R0 {r : Rd} {p : Nat} {R : Int} {x : ℚ} (h : Fwd r p R x) : 0 ≤ R := by
  have : (0 : ℚ) ≤ R := le_trans h.rate0 h.rateR
  exact_mod_cast this

/-- Everything at a frame in `[0, b]` fits in 32 bits if `b` does. -/
theorem frame_fits {H N q b : Int} (hH : 0 ≤ H) (hN : 0 ≤ N) (h0 : 0 ≤ q) (h1 : q ≤ b)
    (hb : H + N * b ≤ 2147483647) : 0 ≤ q * N ∧ H + q * N ≤ 2147483647 := by
  have h2 : 0 ≤ q * N := mul_nonneg h0 hN
  have h3 : q * N ≤ b * N := mul_le_mul_of_nonneg_right h1 hN
  have h4 : N * b = b * N := mul_comm _ _
  omega

theorem Fwd.atEnd {r : Rd} {p : Nat} {R : Int} {x : ℚ} (h : Fwd r p R x) :
    r.atEnd = decide (r.fileSamples ≤ ⌊x⌋) := by
  have hR := h.R0
  have hn := h.plain.nch
  have f := frame_fits h.header0 (le_of_lt hn) h.F0 (show r.fileSamples ≤ r.fileSamples + R + 1 by omega) h.fits
  have hp : r.posOf r.fileSamples = r.header + r.fileSamples * r.nch :=
    posOf_eq ⟨by have := h.header0; omega, f.2⟩
  unfold Rd.atEnd
  simp only [h.plain.dual, Bool.false_eq_true, if_false, h.rate0, ge_iff_le, if_true, h.loop, hp, h.pos]
  congr 1
  apply propext
  constructor
  · intro hle
    have : r.fileSamples * r.nch ≤ ⌊x⌋ * r.nch := by omega
    exact le_of_mul_le_mul_right this hn
  · intro hle
    have := mul_le_mul_of_nonneg_right hle (le_of_lt hn)
    omega

/-- The step of a forward reader. -/
theorem Fwd.step (fp : Fp) {r : Rd} {p : Nat} {R : Int} {x : ℚ} (h : Fwd r p R x) (hx : ⌊x⌋ < r.fileSamples) :
    ∃ r2, stepOn fp r = .ok r2 ∧ Fwd r2 p R (x + r.rate) ∧ r2.rate = r.rate ∧ SameConf r r2 ∧ r2.pts = r.pts := by
  have hR := h.R0
  have hn := h.plain.nch
  have hH := h.header0
  have hrem0 : 0 ≤ r.rem := by rw [h.rem]; have := Int.floor_le x; linarith
  have hrem1 : r.rem < 1 := by rw [h.rem]; have := Int.lt_floor_add_one x; linarith
  have hsum : 0 ≤ r.rem + r.rate := by have := h.rate0; linarith
  have ht : trunc (r.rem + r.rate) = ⌊x + r.rate⌋ - ⌊x⌋ := by
    rw [trunc_of_nonneg hsum, h.rem, show x - ⌊x⌋ + r.rate = x + r.rate - (⌊x⌋ : Int) by ring, Int.floor_sub_intCast]
  have hd0 : 0 ≤ trunc (r.rem + r.rate) := by rw [trunc_of_nonneg hsum]; exact Int.floor_nonneg.2 hsum
  have hdR : trunc (r.rem + r.rate) ≤ R := by
    rw [trunc_of_nonneg hsum]
    have : ⌊r.rem + r.rate⌋ < R + 1 := by
      rw [Int.floor_lt]; push_cast; have := h.rateR; linarith
    omega
  have hx0 : 0 ≤ ⌊x⌋ := Int.floor_nonneg.2 h.x0
  have hq : 0 ≤ ⌊x + r.rate⌋ ∧ ⌊x + r.rate⌋ ≤ r.fileSamples + R := by omega
  have f1 := frame_fits hH (le_of_lt hn) hq.1 (show ⌊x + r.rate⌋ ≤ r.fileSamples + R + 1 by omega) h.fits
  have f2 := frame_fits hH (le_of_lt hn) hd0
    (show trunc (r.rem + r.rate) ≤ r.fileSamples + R + 1 by have := h.F0; omega) h.fits
  have hpos : r.pos1 + trunc (r.rem + r.rate) * r.nch = r.header + ⌊x + r.rate⌋ * r.nch := by
    rw [h.pos, ht]; ring
  have hst := stepOn_grid fp h.grid (by rw [h.rem]; exact h.xgrid.sub (OnGrid.int p _))
    (by rw [abs_of_nonneg hrem0]; exact hrem1) h.plain.cfOn
    (by unfold InI32; omega) (by rw [hpos]; unfold InI32; omega)
  refine ⟨_, hst, ?_, rfl, ⟨rfl, rfl, rfl, rfl, rfl, rfl, rfl, rfl, rfl, rfl, rfl, rfl, rfl, rfl⟩, rfl⟩
  refine ⟨⟨h.plain.dual, h.plain.interp, h.plain.cfOn, h.plain.nch⟩, h.loop, h.rate0, h.grid, h.xgrid.add h.grid.grid,
    add_nonneg h.x0 h.rate0, hpos, ?_, hH, h.F0, h.rateR, h.fits, hq.2⟩
  simp only
  rw [ht, h.rem]; push_cast; ring

/-- **Forward law**, for any source that serves the material. -/
theorem fwd_law (fp : Fp) (hS : SrcIs S I P val) (fuel : Nat) {p : Nat} {R : Int} :
    ∀ (n : Nat) (r : Rd) (x : ℚ) (s : σ), Fwd r p R x → I s →
      (∀ i, r.header ≤ i → i < r.header + r.fileSamples * r.nch → P i) →
      ∃ r' s', readLoop fp S (fuel + 2) n r s =
          .ok ⟨(forwardFrames x r.rate r.fileSamples n).map (fun i => frameAt val r.nch (r.header + i * r.nch)), [], r', s'⟩ ∧
        Fwd r' p R (x + (forwardFrames x r.rate r.fileSamples n).length * r.rate) ∧ I s' ∧ SameConf r r' ∧
        r'.rate = r.rate
  | 0, r, x, s, h, hs, _ => by
    refine ⟨r, s, rfl, ?_, hs, SameConf.refl r, rfl⟩
    simpa [forwardFrames] using h
  | n + 1, r, x, s, h, hs, hP => by
    rw [forwardFrames_succ]
    by_cases hx : ⌊x⌋ < r.fileSamples
    · rw [if_pos hx]
      have he : r.atEnd = false := by rw [h.atEnd]; simpa using hx
      have hx0 : 0 ≤ ⌊x⌋ := Int.floor_nonneg.2 h.x0
      have hn := h.plain.nch
      have hH := h.header0
      have hR := h.R0
      obtain ⟨r2, h2, hf2, hr2, hc2, _⟩ := h.step fp hx
      have f1 := frame_fits hH (le_of_lt hn) (show 0 ≤ ⌊x⌋ + 1 by omega)
        (show ⌊x⌋ + 1 ≤ r.fileSamples + R + 1 by omega) h.fits
      have f0 := frame_fits hH (le_of_lt hn) hx0 (show ⌊x⌋ ≤ r.fileSamples + R + 1 by omega) h.fits
      have e1 : (⌊x⌋ + 1) * r.nch = ⌊x⌋ * r.nch + r.nch := by ring
      have f3 : (⌊x⌋ + 1) * r.nch ≤ r.fileSamples * r.nch := mul_le_mul_of_nonneg_right (by omega) (le_of_lt hn)
      obtain ⟨s1, hs1, hl⟩ := readLoop_step fp hS h.plain.dual h.plain (Or.inl ⟨he, rfl⟩) rfl
        (by rw [h.pos]; unfold InI32; omega)
        (fun c hc => by
          rw [h.pos]
          exact ⟨by unfold InI32; omega, hP _ (by omega) (by omega)⟩) h2 fuel n hs
      obtain ⟨r', s', h3, h4, h5, h6, h7⟩ := fwd_law fp hS fuel n r2 (x + r.rate) s1 hf2 hs1
        (by rw [hc2.header, hc2.fileSamples, hc2.nch]; exact hP)
      refine ⟨r', s', ?_, ?_, h5, hc2.trans h6, h7.trans hr2⟩
      · rw [hl, h3]
        simp only [ok_bind, hr2, hc2.fileSamples, hc2.nch, hc2.header, List.map_cons, h.pos]
      · rw [hr2, hc2.fileSamples] at h4
        convert h4 using 1
        rw [List.length_cons]; push_cast; ring
    · rw [if_neg hx]
      have he : r.atEnd = true := by rw [h.atEnd]; simpa using hx
      refine ⟨r, s, ?_, by simpa using h, hs, SameConf.refl r, rfl⟩
      rw [readLoop_end fp h.plain he h.loop (fuel + 1) n s]; rfl

/-! ## Reverse -/

theorem trunc_of_nonpos {q : ℚ} (h : q ≤ 0) : trunc q = ⌈q⌉ := by
  unfold trunc
  split
  · have : q = 0 := le_antisymm h (by assumption)
    rw [this]; simp
  · rw [Int.floor_neg, neg_neg]

/-- A reader playing backwards without looping, at exact position `x`, down to frame `L`. -/
structure Rev (r : Rd) (p : Nat) (R L : Int) (x : ℚ) : Prop where
  plain : Plain r
  loop : r.loopType = .none
  rate0 : r.rate < 0
  grid : GridRate p r.rate
  xgrid : OnGrid p x
  pos : r.pos1 = r.header + ⌈x⌉ * r.nch
  rem : r.rem = x - ⌈x⌉
  header0 : 0 ≤ r.header
  low : (r.playStart = .sample ∧ L = 0) ∨ (r.playStart ≠ .sample ∧ L = r.loopStart)
  L0 : 0 ≤ L
  LF : L ≤ r.fileSamples
  rateR : -r.rate ≤ R
  fits : r.header + r.nch * (r.fileSamples + R + 1) ≤ 2147483647
  xF : ⌈x⌉ < r.fileSamples
  xR : L - R ≤ ⌈x⌉ + 1

theorem Rev.R0 {r : Rd} {p : Nat} {R L : Int} {x : ℚ} (h : Rev r p R L x) : 0 < R := by
  have : (0 : ℚ) < R := lt_of_lt_of_le (by have := h.rate0; linarith) h.rateR
  exact_mod_cast this

/-- Positions at frames from `-b` to `b`. -/
theorem frame_fits' {H N q b : Int} (hH : 0 ≤ H) (hN : 0 ≤ N) (h0 : -b ≤ q) (h1 : q ≤ b)
    (hb : H + N * b ≤ 2147483647) : -2147483647 ≤ q * N ∧ H + q * N ≤ 2147483647 := by
  have h2 : -b * N ≤ q * N := mul_le_mul_of_nonneg_right h0 hN
  have h3 : q * N ≤ b * N := mul_le_mul_of_nonneg_right h1 hN
  have h4 : N * b = b * N := mul_comm _ _
  have h5 : -b * N = -(b * N) := by ring
  omega

theorem Rev.atEnd {r : Rd} {p : Nat} {R L : Int} {x : ℚ} (h : Rev r p R L x) :
    r.atEnd = decide (⌈x⌉ < L) := by
  have hR := h.R0
  have hn := h.plain.nch
  have key : (r.header + ⌈x⌉ * r.nch < r.header + L * r.nch) ↔ ⌈x⌉ < L := by
    constructor
    · intro hlt
      exact lt_of_mul_lt_mul_right (show ⌈x⌉ * r.nch < L * r.nch by omega) (le_of_lt hn)
    · intro hlt
      have := mul_lt_mul_of_pos_right hlt hn
      omega
  have hnr : ¬ r.rate ≥ 0 := not_le.2 h.rate0
  unfold Rd.atEnd
  simp only [h.plain.dual, Bool.false_eq_true, if_false, if_neg hnr, h.pos]
  rcases h.low with ⟨h1, h2⟩ | ⟨h1, h2⟩
  · rw [if_pos h1]
    congr 1
    rw [← key, h2]; simp
  · rw [if_neg h1]
    have f := frame_fits h.header0 (le_of_lt hn) h.L0 (show L ≤ r.fileSamples + R + 1 by have := h.LF; omega) h.fits
    have hp : r.posOf r.loopStart = r.header + L * r.nch := by
      rw [← h2]; exact posOf_eq ⟨by have := h.header0; omega, f.2⟩
    rw [hp]
    congr 1
    exact propext key

theorem Rev.step (fp : Fp) {r : Rd} {p : Nat} {R L : Int} {x : ℚ} (h : Rev r p R L x) (hx : L ≤ ⌈x⌉) :
    ∃ r2, stepOn fp r = .ok r2 ∧ Rev r2 p R L (x + r.rate) ∧ r2.rate = r.rate ∧ SameConf r r2 ∧ r2.pts = r.pts := by
  have hR := h.R0
  have hn := h.plain.nch
  have hH := h.header0
  have hL := h.L0
  have hF := h.xF
  have hrem0 : r.rem ≤ 0 := by rw [h.rem]; have := Int.le_ceil x; linarith
  have hrem1 : -1 < r.rem := by rw [h.rem]; have := Int.ceil_lt_add_one x; linarith
  have hsum : r.rem + r.rate ≤ 0 := by have := h.rate0; linarith
  have ht : trunc (r.rem + r.rate) = ⌈x + r.rate⌉ - ⌈x⌉ := by
    rw [trunc_of_nonpos hsum, h.rem, show x - ⌈x⌉ + r.rate = x + r.rate - (⌈x⌉ : Int) by ring, Int.ceil_sub_intCast]
  have hd0 : trunc (r.rem + r.rate) ≤ 0 := by
    rw [trunc_of_nonpos hsum, Int.ceil_le]; simpa using hsum
  have hdR : -R ≤ trunc (r.rem + r.rate) := by
    rw [trunc_of_nonpos hsum]
    have : -R - 1 < ⌈r.rem + r.rate⌉ := by
      rw [Int.lt_ceil]; push_cast; have := h.rateR; linarith
    omega
  have hq : L - R ≤ ⌈x + r.rate⌉ + 1 ∧ ⌈x + r.rate⌉ < r.fileSamples := by omega
  have f1 := frame_fits' hH (le_of_lt hn) (show -(r.fileSamples + R + 1) ≤ ⌈x + r.rate⌉ by omega)
    (show ⌈x + r.rate⌉ ≤ r.fileSamples + R + 1 by omega) h.fits
  have f2 := frame_fits' hH (le_of_lt hn) (show -(r.fileSamples + R + 1) ≤ trunc (r.rem + r.rate) by omega)
    (show trunc (r.rem + r.rate) ≤ r.fileSamples + R + 1 by omega) h.fits
  have hpos : r.pos1 + trunc (r.rem + r.rate) * r.nch = r.header + ⌈x + r.rate⌉ * r.nch := by
    rw [h.pos, ht]; ring
  have hst := stepOn_grid fp h.grid (by rw [h.rem]; exact h.xgrid.sub (OnGrid.int p _))
    (by rw [abs_of_nonpos hrem0]; linarith) h.plain.cfOn
    (by unfold InI32; omega) (by rw [hpos]; unfold InI32; omega)
  refine ⟨_, hst, ?_, rfl, ⟨rfl, rfl, rfl, rfl, rfl, rfl, rfl, rfl, rfl, rfl, rfl, rfl, rfl, rfl⟩, rfl⟩
  refine ⟨⟨h.plain.dual, h.plain.interp, h.plain.cfOn, h.plain.nch⟩, h.loop, h.rate0, h.grid, h.xgrid.add h.grid.grid,
    hpos, ?_, hH, h.low, hL, h.LF, h.rateR, h.fits, hq.2, hq.1⟩
  simp only
  rw [ht, h.rem]; push_cast; ring

/-- **Reverse law**, for any source that serves the material. -/
theorem rev_law (fp : Fp) (hS : SrcIs S I P val) (fuel : Nat) {p : Nat} {R L : Int} :
    ∀ (n : Nat) (r : Rd) (x : ℚ) (s : σ), Rev r p R L x → I s →
      (∀ i, r.header ≤ i → i < r.header + r.fileSamples * r.nch → P i) →
      ∃ r' s', readLoop fp S (fuel + 2) n r s =
          .ok ⟨(reverseFrames x (-r.rate) L n).map (fun i => frameAt val r.nch (r.header + i * r.nch)), [], r', s'⟩ ∧
        Rev r' p R L (x + (reverseFrames x (-r.rate) L n).length * r.rate) ∧ I s' ∧ SameConf r r' ∧ r'.rate = r.rate
  | 0, r, x, s, h, hs, _ => by
    refine ⟨r, s, rfl, ?_, hs, SameConf.refl r, rfl⟩
    simpa [reverseFrames] using h
  | n + 1, r, x, s, h, hs, hP => by
    rw [reverseFrames_succ]
    by_cases hx : L ≤ ⌈x⌉
    · rw [if_pos hx]
      have he : r.atEnd = false := by rw [h.atEnd]; simpa using hx
      have hn := h.plain.nch
      have hH := h.header0
      have hR := h.R0
      have hL := h.L0
      have hF := h.xF
      obtain ⟨r2, h2, hf2, hr2, hc2, _⟩ := h.step fp hx
      have f1 := frame_fits hH (le_of_lt hn) (show 0 ≤ ⌈x⌉ + 1 by omega)
        (show ⌈x⌉ + 1 ≤ r.fileSamples + R + 1 by omega) h.fits
      have f0 := frame_fits hH (le_of_lt hn) (show 0 ≤ ⌈x⌉ by omega) (show ⌈x⌉ ≤ r.fileSamples + R + 1 by omega) h.fits
      have e1 : (⌈x⌉ + 1) * r.nch = ⌈x⌉ * r.nch + r.nch := by ring
      have f3 : (⌈x⌉ + 1) * r.nch ≤ r.fileSamples * r.nch := mul_le_mul_of_nonneg_right (by omega) (le_of_lt hn)
      obtain ⟨s1, hs1, hl⟩ := readLoop_step fp hS h.plain.dual h.plain (Or.inl ⟨he, rfl⟩) rfl
        (by rw [h.pos]; unfold InI32; omega)
        (fun c hc => by
          rw [h.pos]
          exact ⟨by unfold InI32; omega, hP _ (by omega) (by omega)⟩) h2 fuel n hs
      obtain ⟨r', s', h3, h4, h5, h6, h7⟩ := rev_law fp hS fuel n r2 (x + r.rate) s1 hf2 hs1
        (by rw [hc2.header, hc2.fileSamples, hc2.nch]; exact hP)
      rw [hr2, ← sub_neg_eq_add x r.rate] at h3 h4
      refine ⟨r', s', ?_, ?_, h5, hc2.trans h6, h7.trans hr2⟩
      · rw [hl, h3]
        simp only [ok_bind, hc2.nch, hc2.header, List.map_cons, h.pos]
      · convert h4 using 1
        rw [List.length_cons]; push_cast; ring
    · rw [if_neg hx]
      have he : r.atEnd = true := by rw [h.atEnd]; simpa using hx
      refine ⟨r, s, ?_, by simpa using h, hs, SameConf.refl r, rfl⟩
      rw [readLoop_end fp h.plain he h.loop (fuel + 1) n s]; rfl

/-! ## Any double rate -/

/-- `stepOn` for an arbitrary rate of at most `R` frames: the fraction stays below one and the position moves by at
most `R + 1` frames, in the direction of the rate. -/
theorem stepOn_any (fp : Fp) (hfp : Representable fp) {r : Rd} {R : Int} (hR : |r.rate| ≤ R) (hR2 : R ≤ 2 ^ 30)
    (hf : IsFloat 53 (-1074) r.rem) (h1 : |r.rem| < 1) (hc : r.cfOn = false)
    (hfit : ∀ δ : Int, |δ| ≤ R + 1 → (0 ≤ r.rate → 0 ≤ δ) → (r.rate ≤ 0 → δ ≤ 0) →
      InI32 (δ * r.nch) ∧ InI32 (r.pos1 + δ * r.nch)) :
    ∃ (δ : Int) (f : ℚ), stepOn fp r = .ok { r with rem := f, pos1 := r.pos1 + δ * r.nch } ∧ |δ| ≤ R + 1 ∧
      (0 ≤ r.rate → 0 ≤ δ) ∧ (r.rate ≤ 0 → δ ≤ 0) ∧ IsFloat 53 (-1074) f ∧ |f| < 1 := by
  set s := fp.d.rnd (r.rem + r.rate) with hs
  have hR0 : 0 ≤ R := by
    have : (0 : ℚ) ≤ R := le_trans (abs_nonneg _) hR
    exact_mod_cast this
  have hbig : (2 : Int) ^ 30 + 1 ≤ 2 ^ 53 := by norm_num
  have hsb : |s| ≤ ((R + 1 : Int) : ℚ) := by
    have h2 := abs_add_le r.rem r.rate
    have h3 : |r.rem + r.rate| ≤ ((R + 1 : Int) : ℚ) := by push_cast; linarith
    obtain ⟨h4, h5⟩ := abs_le.1 h3
    have hex : fp.d.rnd ((R + 1 : Int) : ℚ) = ((R + 1 : Int) : ℚ) :=
      fp.d.exact_int (by norm_num) (by norm_num) (by rw [abs_of_nonneg (by omega)]; push_cast; omega)
    have hex' : fp.d.rnd ((-(R + 1) : Int) : ℚ) = ((-(R + 1) : Int) : ℚ) :=
      fp.d.exact_int (by norm_num) (by norm_num) (by rw [abs_neg, abs_of_nonneg (by omega)]; push_cast; omega)
    refine abs_le.2 ⟨?_, ?_⟩
    · have := fp.d.mono (show ((-(R + 1) : Int) : ℚ) ≤ r.rem + r.rate by push_cast at h4 ⊢; linarith)
      rw [hex'] at this; push_cast at this ⊢; linarith
    · have := fp.d.mono h5
      rw [hex] at this; exact this
  have hrem : fp.d.rnd r.rem = r.rem := fp.d.exact _ hf
  obtain ⟨hl1, hl2⟩ := abs_lt.1 h1
  have hd := abs_trunc_le hsb
  have hd0 : 0 ≤ r.rate → 0 ≤ trunc s := by
    intro h0
    have : r.rem ≤ s := by rw [← hrem]; exact fp.d.mono (by linarith)
    unfold trunc
    split
    · exact Int.floor_nonneg.2 (by assumption)
    · have : ⌊-s⌋ < 1 := by rw [Int.floor_lt]; push_cast; linarith
      omega
  have hd1 : r.rate ≤ 0 → trunc s ≤ 0 := by
    intro h0
    have : s ≤ r.rem := by rw [← hrem]; exact fp.d.mono (by linarith)
    unfold trunc
    split
    · have : ⌊s⌋ < 1 := by rw [Int.floor_lt]; push_cast; linarith
      omega
    · have : 0 ≤ ⌊-s⌋ := Int.floor_nonneg.2 (by linarith)
      omega
  have hfl := frac_isFloat (hfp (r.rem + r.rate))
  rw [← hs] at hfl
  have hex := fp.d.exact _ hfl
  obtain ⟨i1, i2⟩ := hfit (trunc s) hd hd0 hd1
  refine ⟨trunc s, s - (trunc s : Int), ?_, hd, hd0, hd1, hfl, trunc_rest s⟩
  obtain ⟨b1, b2⟩ := abs_le.1 hsb
  have hRq : ((R + 1 : Int) : ℚ) ≤ 2 ^ 30 + 1 := by exact_mod_cast (show R + 1 ≤ 2 ^ 30 + 1 by omega)
  unfold stepOn
  simp only [← hs]
  rw [castI32_ok (by linarith) (by linarith)]
  simp only [ok_bind, hex, chkI32_ok i1, chkI32_ok i2, hc, Bool.false_eq_true, if_false, pure_eq_ok]

end TVP
