import Verif.Lemmas.Laws
import Mathlib.Tactic.LinearCombination

/-!
# Looping
-/

namespace TVP
open Spec

variable {σ : Type} {S : Src σ} {I : σ → Prop} {P : Int → Prop} {val : Int → Int}

/-! ## Any rate: the reader stays inside the loop -/

/-- A looping reader at frame `q`.  `R` bounds the rate. -/
structure Loop (r : Rd) (R q : Int) : Prop where
  plain : Plain r
  loop : r.loopType ≠ .none
  rateR : |r.rate| ≤ R
  R30 : R ≤ 2 ^ 30
  flt : IsFloat 53 (-1074) r.rem
  frac : |r.rem| < 1
  pos : r.pos1 = r.header + q * r.nch
  header0 : 0 ≤ r.header
  A0 : 0 ≤ r.loopStart
  AE : r.loopStart < r.loopFinish
  /-- reverse movement stops at the loop start and not at the beginning of the material -/
  low : (r.loopType = .repeat ∧ 0 ≤ r.rate) ∨
    ((r.playStart ≠ .sample ∨ r.loopStart = 0) ∧ r.loopStart ≤ r.loopFinish - r.nch)
  fits : r.header + r.nch * (r.loopFinish + R + 2) ≤ 2147483647
  q0 : 0 ≤ r.rate → r.loopStart ≤ q ∧ q ≤ r.loopFinish + R
  q1 : r.rate < 0 → r.loopStart - R - 1 ≤ q ∧ q < r.loopFinish

theorem Loop.R0 {r : Rd} {R q : Int} (h : Loop r R q) : 0 ≤ R := by
  have : (0 : ℚ) ≤ R := le_trans (abs_nonneg _) h.rateR
  exact_mod_cast this

theorem mul_lt_iff {a b N : Int} (hN : 0 < N) (H : Int) : H + a * N < H + b * N ↔ a < b := by
  constructor
  · intro hlt; exact lt_of_mul_lt_mul_right (show a * N < b * N by omega) (le_of_lt hN)
  · intro hlt; have := mul_lt_mul_of_pos_right hlt hN; omega

theorem mul_le_iff {a b N : Int} (hN : 0 < N) (H : Int) : H + a * N ≤ H + b * N ↔ a ≤ b := by
  have := mul_lt_iff (a := b) (b := a) hN H; omega

theorem Loop.posStart {r : Rd} {R q : Int} (h : Loop r R q) : r.posOf r.loopStart = r.header + r.loopStart * r.nch := by
  have f := frame_fits h.header0 (le_of_lt h.plain.nch) h.A0
    (show r.loopStart ≤ r.loopFinish + R + 2 by have := h.AE; have := h.R0; omega) h.fits
  exact posOf_eq ⟨by have := h.header0; omega, f.2⟩

theorem Loop.posFinish {r : Rd} {R q : Int} (h : Loop r R q) : r.posOf r.loopFinish = r.header + r.loopFinish * r.nch := by
  have f := frame_fits h.header0 (le_of_lt h.plain.nch) (show 0 ≤ r.loopFinish by have := h.AE; have := h.A0; omega)
    (show r.loopFinish ≤ r.loopFinish + R + 2 by have := h.R0; omega) h.fits
  exact posOf_eq ⟨by have := h.header0; omega, f.2⟩

theorem Loop.posBack {r : Rd} {R q : Int} (h : Loop r R q) (hb : r.loopStart ≤ r.loopFinish - r.nch) :
    r.posOf (r.loopFinish - r.nch) = r.header + (r.loopFinish - r.nch) * r.nch := by
  have f := frame_fits h.header0 (le_of_lt h.plain.nch) (show 0 ≤ r.loopFinish - r.nch by have := h.A0; omega)
    (show r.loopFinish - r.nch ≤ r.loopFinish + R + 2 by have := h.R0; have := h.plain.nch; omega) h.fits
  exact posOf_eq ⟨by have := h.header0; omega, f.2⟩

theorem Loop.atEnd_fwd {r : Rd} {R q : Int} (h : Loop r R q) (h0 : 0 ≤ r.rate) :
    r.atEnd = decide (r.loopFinish ≤ q) := by
  unfold Rd.atEnd
  simp only [h.plain.dual, Bool.false_eq_true, if_false, ge_iff_le, if_pos h0, if_neg h.loop, h.posFinish, h.pos]
  congr 1
  exact propext (mul_le_iff h.plain.nch _)

theorem Loop.atEnd_rev {r : Rd} {R q : Int} (h : Loop r R q) (h0 : r.rate < 0) :
    r.atEnd = decide (q < r.loopStart) := by
  have hlow : r.playStart ≠ .sample ∨ r.loopStart = 0 := by
    rcases h.low with ⟨_, h1⟩ | h1
    · exact absurd h1 (not_le.2 h0)
    · exact h1.1
  unfold Rd.atEnd
  simp only [h.plain.dual, Bool.false_eq_true, if_false, ge_iff_le, if_neg (not_le.2 h0), h.posStart, h.pos]
  by_cases hs : r.playStart = .sample
  · rw [if_pos hs]
    have hA : r.loopStart = 0 := by
      rcases hlow with h1 | h1
      · exact absurd hs h1
      · exact h1
    congr 1
    rw [hA]
    have := mul_lt_iff (a := q) (b := 0) h.plain.nch r.header
    rw [← this]; simp
  · rw [if_neg hs]
    congr 1
    exact propext (mul_lt_iff h.plain.nch _)

/-- Where a looping reader reads its next frame: inside the loop. -/
theorem Loop.settle {r : Rd} {R q : Int} (h : Loop r R q) :
    ∃ r1 q1, Settles r r1 ∧ Loop r1 R q1 ∧ r.loopStart ≤ q1 ∧ q1 < r.loopFinish ∧ SameConf r r1 ∧
      (r1.rate = r.rate ∨ (r1.rate = -r.rate ∧ r.loopType = .pingpong)) ∧ r1.rem = r.rem ∧
      (r.atEnd = false → r1 = r ∧ q1 = q) := by
  have hR := h.R0
  have hn := h.plain.nch
  have hA := h.A0
  have hAE := h.AE
  cases he : r.atEnd
  · refine ⟨r, q, Or.inl ⟨he, rfl⟩, h, ?_, ?_, SameConf.refl r, Or.inl rfl, rfl, fun _ => ⟨rfl, rfl⟩⟩
    · rcases le_or_gt 0 r.rate with h0 | h0
      · exact (h.q0 h0).1
      · rw [h.atEnd_rev h0] at he; simpa using he
    · rcases le_or_gt 0 r.rate with h0 | h0
      · rw [h.atEnd_fwd h0] at he; simpa using he
      · exact (h.q1 h0).2
  · cases hl : r.loopType with
    | none => exact absurd hl h.loop
    | «repeat» =>
      rcases le_or_gt 0 r.rate with h0 | h0
      · have hL : Loop { r with cfOn := false, pos1 := r.posOf r.loopStart } R r.loopStart :=
          ⟨⟨h.plain.dual, h.plain.interp, rfl, hn⟩, h.loop, h.rateR, h.R30, h.flt, h.frac, h.posStart, h.header0, hA, hAE,
            h.low, h.fits, fun _ => ⟨le_refl _, by simp only; omega⟩, fun h' => absurd h0 (not_le.2 h')⟩
        refine ⟨_, r.loopStart, Or.inr ⟨he, ?_, ?_⟩, hL, le_refl _, hAE,
          ⟨rfl, rfl, rfl, rfl, rfl, rfl, rfl, rfl, rfl, rfl, rfl, rfl, rfl, rfl⟩, Or.inl rfl, rfl, fun h' => by cases h'⟩
        · unfold wrapAround
          simp only [hl, ge_iff_le, if_pos h0]; rfl
        · rw [hL.atEnd_fwd h0]; simpa using hAE
      · have hb : r.loopStart ≤ r.loopFinish - r.nch := by
          rcases h.low with ⟨_, h1⟩ | h1
          · exact absurd h1 (not_le.2 h0)
          · exact h1.2
        have hL : Loop { r with cfOn := false, pos1 := r.posOf (r.loopFinish - r.nch) } R (r.loopFinish - r.nch) :=
          ⟨⟨h.plain.dual, h.plain.interp, rfl, hn⟩, h.loop, h.rateR, h.R30, h.flt, h.frac, h.posBack hb, h.header0, hA, hAE,
            h.low, h.fits, fun h' => absurd h' (not_le.2 h0), fun _ => ⟨by simp only; omega, by simp only; omega⟩⟩
        refine ⟨_, r.loopFinish - r.nch, Or.inr ⟨he, ?_, ?_⟩, hL, hb, by omega,
          ⟨rfl, rfl, rfl, rfl, rfl, rfl, rfl, rfl, rfl, rfl, rfl, rfl, rfl, rfl⟩, Or.inl rfl, rfl, fun h' => by cases h'⟩
        · unfold wrapAround
          simp only [hl, ge_iff_le, if_neg (not_le.2 h0)]; rfl
        · rw [hL.atEnd_rev h0]; simpa using hb
    | pingpong =>
      have hlow : (r.playStart ≠ .sample ∨ r.loopStart = 0) ∧ r.loopStart ≤ r.loopFinish - r.nch := by
        rcases h.low with ⟨h1, _⟩ | h1
        · rw [hl] at h1; cases h1
        · exact h1
      have hb := hlow.2
      rcases le_or_gt 0 r.rate with h0 | h0
      · have hL : Loop { r with cfOn := false, pos1 := r.posOf (r.loopFinish - r.nch), rate := -r.rate } R
            (r.loopFinish - r.nch) :=
          ⟨⟨h.plain.dual, h.plain.interp, rfl, hn⟩, h.loop, by simp only [abs_neg]; exact h.rateR, h.R30, h.flt, h.frac,
            h.posBack hb, h.header0, hA, hAE, Or.inr hlow, h.fits,
            fun _ => ⟨hb, by simp only; omega⟩, fun _ => ⟨by simp only; omega, by simp only; omega⟩⟩
        refine ⟨_, r.loopFinish - r.nch, Or.inr ⟨he, ?_, ?_⟩, hL, hb, by omega,
          ⟨rfl, rfl, rfl, rfl, rfl, rfl, rfl, rfl, rfl, rfl, rfl, rfl, rfl, rfl⟩, Or.inr ⟨rfl, rfl⟩, rfl,
          fun h' => by cases h'⟩
        · unfold wrapAround
          simp only [hl, ge_iff_le, if_pos h0]; rfl
        · rcases le_or_gt 0 (-r.rate) with h2 | h2
          · rw [hL.atEnd_fwd h2]; simp only [decide_eq_false_iff_not]; omega
          · rw [hL.atEnd_rev h2]; simp only [decide_eq_false_iff_not]; omega
      · have hst : (if r.playStart = .sample then r.header else r.posOf r.loopStart) = r.header + r.loopStart * r.nch := by
          by_cases hs : r.playStart = .sample
          · rw [if_pos hs]
            have hA : r.loopStart = 0 := by
              rcases hlow.1 with h1 | h1
              · exact absurd hs h1
              · exact h1
            rw [hA]; ring
          · rw [if_neg hs, h.posStart]
        have hL : Loop { r with cfOn := false, pos1 := (if r.playStart = .sample then r.header else r.posOf r.loopStart),
                                rate := -r.rate } R r.loopStart :=
          ⟨⟨h.plain.dual, h.plain.interp, rfl, hn⟩, h.loop, by simp only [abs_neg]; exact h.rateR, h.R30, h.flt, h.frac,
            hst, h.header0, hA, hAE, Or.inr hlow, h.fits,
            fun _ => ⟨le_refl _, by simp only; omega⟩, fun h' => absurd h' (by simp only; linarith)⟩
        refine ⟨_, r.loopStart, Or.inr ⟨he, ?_, ?_⟩, hL, le_refl _, hAE,
          ⟨rfl, rfl, rfl, rfl, rfl, rfl, rfl, rfl, rfl, rfl, rfl, rfl, rfl, rfl⟩, Or.inr ⟨rfl, rfl⟩, rfl,
          fun h' => by cases h'⟩
        · unfold wrapAround
          simp only [hl, ge_iff_le, if_neg (not_le.2 h0)]; rfl
        · rw [hL.atEnd_fwd (by simp only; linarith)]; simp only [decide_eq_false_iff_not]; omega

theorem Loop.step (fp : Fp) (hfp : Representable fp) {r : Rd} {R q : Int} (h : Loop r R q)
    (hA : r.loopStart ≤ q) (hE : q < r.loopFinish) :
    ∃ r2 q2, stepOn fp r = .ok r2 ∧ Loop r2 R q2 ∧ SameConf r r2 ∧ r2.rate = r.rate ∧
      |q2 - q| ≤ R + 1 ∧ (0 ≤ r.rate → q ≤ q2) ∧ (r.rate ≤ 0 → q2 ≤ q) := by
  have hR := h.R0
  have hn := h.plain.nch
  have hA0 := h.A0
  obtain ⟨δ, f, hst, hd, h0, h1, hf, hf1⟩ := stepOn_any fp hfp h.rateR h.R30 h.flt h.frac h.plain.cfOn
    (by
      intro δ hd _ _
      obtain ⟨d1, d2⟩ := abs_le.1 hd
      have f1 := frame_fits' h.header0 (le_of_lt hn) (show -(r.loopFinish + R + 2) ≤ δ by omega)
        (show δ ≤ r.loopFinish + R + 2 by omega) h.fits
      have f2 := frame_fits' h.header0 (le_of_lt hn) (show -(r.loopFinish + R + 2) ≤ q + δ by omega)
        (show q + δ ≤ r.loopFinish + R + 2 by omega) h.fits
      have e : r.header + (q + δ) * r.nch = r.pos1 + δ * r.nch := by rw [h.pos]; ring
      have hH := h.header0
      exact ⟨by unfold InI32; omega, by rw [← e]; unfold InI32; omega⟩)
  obtain ⟨d1, d2⟩ := abs_le.1 hd
  refine ⟨_, q + δ, hst, ?_, ⟨rfl, rfl, rfl, rfl, rfl, rfl, rfl, rfl, rfl, rfl, rfl, rfl, rfl, rfl⟩, rfl,
    by rw [add_sub_cancel_left]; exact hd, fun h' => by have := h0 h'; omega, fun h' => by have := h1 h'; omega⟩
  exact ⟨⟨h.plain.dual, h.plain.interp, h.plain.cfOn, hn⟩, h.loop, h.rateR, h.R30, hf, hf1, by simp only; rw [h.pos]; ring,
    h.header0, hA0, h.AE, h.low, h.fits, fun h' => by have := h0 h'; simp only; omega,
    fun h' => by have := h1 (le_of_lt h'); simp only; omega⟩

/-- Looped playback is always full and stays inside the loop. -/
theorem loop_inside (fp : Fp) (hfp : Representable fp) (hS : SrcIs S I P val) (fuel : Nat) {R : Int} :
    ∀ (n : Nat) (r : Rd) (q : Int) (s : σ), Loop r R q → I s →
      (∀ i, r.header + r.loopStart * r.nch ≤ i → i < r.header + r.loopFinish * r.nch → P i) →
      ∃ (idx : List Int) (r' : Rd) (q' : Int) (s' : σ), readLoop fp S (fuel + 2) n r s =
          .ok ⟨idx.map (fun i => frameAt val r.nch (r.header + i * r.nch)), [], r', s'⟩ ∧
        idx.length = n ∧ (∀ i ∈ idx, r.loopStart ≤ i ∧ i < r.loopFinish) ∧ Loop r' R q' ∧ I s' ∧ SameConf r r'
  | 0, r, q, s, h, hs, _ => ⟨[], r, q, s, rfl, rfl, by simp, h, hs, SameConf.refl r⟩
  | n + 1, r, q, s, h, hs, hP => by
    obtain ⟨r1, q1, hset, hl1, hA, hE, hc1, _, _, _⟩ := h.settle
    obtain ⟨r2, q2, hst, hl2, hc2, _⟩ := hl1.step fp hfp (by rw [hc1.loopStart]; exact hA) (by rw [hc1.loopFinish]; exact hE)
    have hn := h.plain.nch
    have hR := h.R0
    have hA0 := h.A0
    have hH := h.header0
    have f1 := frame_fits h.header0 (le_of_lt hn) (show 0 ≤ q1 + 1 by omega)
      (show q1 + 1 ≤ r.loopFinish + R + 2 by omega) h.fits
    have f0 := frame_fits h.header0 (le_of_lt hn) (show 0 ≤ q1 by omega)
      (show q1 ≤ r.loopFinish + R + 2 by omega) h.fits
    have e1 : (q1 + 1) * r.nch = q1 * r.nch + r.nch := by ring
    have f2 : (q1 + 1) * r.nch ≤ r.loopFinish * r.nch := mul_le_mul_of_nonneg_right (by omega) (le_of_lt hn)
    have f3 : r.loopStart * r.nch ≤ q1 * r.nch := mul_le_mul_of_nonneg_right (by omega) (le_of_lt hn)
    have hpos : r1.pos1 = r.header + q1 * r.nch := by rw [hl1.pos, hc1.header, hc1.nch]
    obtain ⟨s1, hs1, hl⟩ := readLoop_step fp hS h.plain.dual hl1.plain hset hc1.nch
      (by rw [hpos]; unfold InI32; omega)
      (fun c hc => by
        rw [hc1.nch] at hc
        rw [hpos]
        exact ⟨by unfold InI32; omega, hP _ (by omega) (by omega)⟩) hst fuel n hs
    have hc := hc1.trans hc2
    obtain ⟨idx, r', q', s', h3, h4, h5, h6, h7, h8⟩ := loop_inside fp hfp hS fuel n r2 q2 s1 hl2 hs1
      (by rw [hc.header, hc.loopStart, hc.loopFinish, hc.nch]; exact hP)
    refine ⟨q1 :: idx, r', q', s', ?_, by simp [h4], ?_, h6, h7, hc.trans h8⟩
    · rw [hl, h3]
      simp only [ok_bind, hc.nch, hc.header, List.map_cons, hpos, hc1.nch]
    · intro i hi
      rcases List.mem_cons.1 hi with rfl | hi
      · exact ⟨hA, hE⟩
      · rw [← hc.loopStart, ← hc.loopFinish]; exact h5 i hi

/-! ## Unit rate: closed forms -/

theorem repeatFrames_succ (s a b : Int) (n : Nat) :
    repeatFrames s a b (n + 1) = (a + (s - a) % (b - a)) :: repeatFrames (s + 1) a b n := by
  unfold repeatFrames
  rw [List.range_succ_eq_map, List.map_cons, List.map_map]
  congr 1
  · simp
  · apply List.map_congr_left
    intro k _
    simp only [Function.comp, Nat.succ_eq_add_one]
    congr 2; push_cast; ring

theorem repeatFrames_period (s a b : Int) (n : Nat) : repeatFrames (s + (b - a)) a b n = repeatFrames s a b n := by
  unfold repeatFrames
  apply List.map_congr_left
  intro k _
  rw [show (k : Int) + (s + (b - a)) - a = (k + s - a) + (b - a) by ring, Int.add_emod_right]

theorem pingpongFrames_succ (s a b c : Int) (n : Nat) :
    pingpongFrames s a b c (n + 1) =
      (if (s - a) % (2 * (b - a) - c + 1) < b - a then a + (s - a) % (2 * (b - a) - c + 1)
       else a + (2 * (b - a) - c - (s - a) % (2 * (b - a) - c + 1))) :: pingpongFrames (s + 1) a b c n := by
  unfold pingpongFrames
  rw [List.range_succ_eq_map, List.map_cons, List.map_map]
  congr 1
  · simp
  · apply List.map_congr_left
    intro k _
    simp only [Function.comp, Nat.succ_eq_add_one]
    rw [show ((k + 1 : Nat) : Int) + s - a = k + (s + 1) - a by push_cast; ring]

theorem pingpongFrames_period (s a b c : Int) (n : Nat) :
    pingpongFrames (s + (2 * (b - a) - c + 1)) a b c n = pingpongFrames s a b c n := by
  unfold pingpongFrames
  apply List.map_congr_left
  intro k _
  simp only
  rw [show (k : Int) + (s + (2 * (b - a) - c + 1)) - a = (k + s - a) + (2 * (b - a) - c + 1) by ring, Int.add_emod_right]

theorem GridRate.one {p : Nat} (hp : p ≤ 52) : GridRate p 1 :=
  ⟨hp, by simpa using OnGrid.int p 1, by simpa using one_le_pow₀ (by norm_num), by norm_num⟩

/-- One unit step forwards. -/
theorem stepOn_unit (fp : Fp) {r : Rd} {p : Nat} (hp : p ≤ 52) (hrate : r.rate = 1) (hg : OnGrid p r.rem)
    (h0 : 0 ≤ r.rem) (h1 : r.rem < 1) (hc : r.cfOn = false) (hn : InI32 r.nch) (hpos : InI32 (r.pos1 + r.nch)) :
    stepOn fp r = .ok { r with pos1 := r.pos1 + r.nch } := by
  have ht : trunc (r.rem + r.rate) = 1 := by
    rw [hrate, trunc_of_nonneg (by linarith), Int.floor_eq_iff]; constructor <;> push_cast <;> linarith
  have := stepOn_grid fp (r := r) (p := p) (by rw [hrate]; exact GridRate.one hp) hg (by rw [abs_of_nonneg h0]; exact h1) hc
    (by rw [ht, one_mul]; exact hn) (by rw [ht, one_mul]; exact hpos)
  rw [this, ht, hrate]
  congr 1
  simp

/-- One unit step backwards from a whole position. -/
theorem stepOn_unit_rev (fp : Fp) {r : Rd} (hrate : r.rate = -1) (h0 : r.rem = 0)
    (hc : r.cfOn = false) (hn : InI32 (-r.nch)) (hpos : InI32 (r.pos1 - r.nch)) :
    stepOn fp r = .ok { r with pos1 := r.pos1 - r.nch } := by
  have ht : trunc (r.rem + r.rate) = -1 := by
    rw [hrate, h0]
    have := trunc_int (-1); push_cast at this; simpa using this
  have := stepOn_grid fp (r := r) (p := 0) (by rw [hrate]; exact (GridRate.one (by norm_num)).neg)
    (by rw [h0]; simpa using OnGrid.int 0 0) (by rw [h0]; simp) hc
    (by rw [ht, neg_one_mul]; exact hn) (by rw [ht, neg_one_mul]; exact hpos)
  rw [this, ht, hrate, h0]
  congr 1
  simp [sub_eq_add_neg]

/-- A unit-rate looping reader at frame `q` of the loop (or just past either end). -/
structure ULoop (r : Rd) (q : Int) : Prop where
  plain : Plain r
  pos : r.pos1 = r.header + q * r.nch
  header0 : 0 ≤ r.header
  A0 : 0 ≤ r.loopStart
  AE : r.loopStart < r.loopFinish
  fits : r.header + r.nch * (r.loopFinish + 1) ≤ 2147483647

theorem ULoop.posOf {r : Rd} {q : Int} (h : ULoop r q) {x : Int} (h0 : 0 ≤ x) (h1 : x ≤ r.loopFinish) :
    r.posOf x = r.header + x * r.nch := by
  have f := frame_fits h.header0 (le_of_lt h.plain.nch) h0 (show x ≤ r.loopFinish + 1 by omega) h.fits
  exact posOf_eq ⟨by have := h.header0; omega, f.2⟩

theorem ULoop.atEnd_fwd {r : Rd} {q : Int} (h : ULoop r q) (hl : r.loopType ≠ .none) (h0 : 0 ≤ r.rate) :
    r.atEnd = decide (r.loopFinish ≤ q) := by
  unfold Rd.atEnd
  simp only [h.plain.dual, Bool.false_eq_true, if_false, ge_iff_le, if_pos h0, if_neg hl,
    h.posOf (show 0 ≤ r.loopFinish by have := h.A0; have := h.AE; omega) (le_refl _), h.pos]
  congr 1
  exact propext (mul_le_iff h.plain.nch _)

theorem ULoop.atEnd_rev {r : Rd} {q : Int} (h : ULoop r q) (hlow : r.playStart ≠ .sample ∨ r.loopStart = 0)
    (h0 : r.rate < 0) : r.atEnd = decide (q < r.loopStart) := by
  unfold Rd.atEnd
  simp only [h.plain.dual, Bool.false_eq_true, if_false, ge_iff_le, if_neg (not_le.2 h0),
    h.posOf h.A0 (le_of_lt h.AE), h.pos]
  by_cases hs : r.playStart = .sample
  · rw [if_pos hs]
    have hA : r.loopStart = 0 := by
      rcases hlow with h1 | h1
      · exact absurd hs h1
      · exact h1
    congr 1
    rw [hA]
    have := mul_lt_iff (a := q) (b := 0) h.plain.nch r.header
    rw [← this]; simp
  · rw [if_neg hs]
    congr 1
    exact propext (mul_lt_iff h.plain.nch _)

/-- The frame at `q` inside the loop can be read, and so can positions one frame around it. -/
theorem ULoop.room {r : Rd} {q : Int} (h : ULoop r q) (h0 : r.loopStart ≤ q) (h1 : q < r.loopFinish) :
    InI32 r.pos1 ∧ InI32 (r.pos1 + r.nch) ∧ InI32 (r.pos1 - r.nch) ∧ InI32 r.nch ∧ InI32 (-r.nch) ∧
    r.header + r.loopStart * r.nch ≤ r.pos1 ∧ r.pos1 + r.nch ≤ r.header + r.loopFinish * r.nch := by
  have hn := h.plain.nch
  have hA := h.A0
  have hH := h.header0
  have f := frame_fits h.header0 (le_of_lt hn) (show 0 ≤ q by omega) (show q ≤ r.loopFinish + 1 by omega) h.fits
  have f1 := frame_fits h.header0 (le_of_lt hn) (show 0 ≤ q + 1 by omega) (show q + 1 ≤ r.loopFinish + 1 by omega) h.fits
  have e1 : (q + 1) * r.nch = q * r.nch + r.nch := by ring
  have f2 : (q + 1) * r.nch ≤ r.loopFinish * r.nch := mul_le_mul_of_nonneg_right (by omega) (le_of_lt hn)
  have f3 : r.loopStart * r.nch ≤ q * r.nch := mul_le_mul_of_nonneg_right (by omega) (le_of_lt hn)
  rw [h.pos]
  unfold InI32
  refine ⟨?_, ?_, ?_, ?_, ?_, ?_, ?_⟩ <;> omega

/-- Reading one frame at `q` (inside the loop) after settling, then stepping. -/
theorem ULoop.turn (fp : Fp) (hS : SrcIs S I P val) {r r1 r2 : Rd} {q : Int} (h : ULoop r1 q) (hd : r.dual = false)
    (hset : Settles r r1) (hc : SameConf r r1) (h0 : r1.loopStart ≤ q) (h1 : q < r1.loopFinish)
    (hP : ∀ i, r.header + r.loopStart * r.nch ≤ i → i < r.header + r.loopFinish * r.nch → P i)
    (hst : stepOn fp r1 = .ok r2) (fuel n : Nat) {s : σ} (hs : I s) :
    ∃ s', I s' ∧ readLoop fp S (fuel + 2) (n + 1) r s =
      (readLoop fp S (fuel + 2) n r2 s' >>= fun o =>
        .ok { o with frames := frameAt val r.nch (r.header + q * r.nch) :: o.frames }) := by
  obtain ⟨b1, b2, b3, b4, b5, b6, b7⟩ := h.room h0 h1
  have hpos : r1.pos1 = r.header + q * r.nch := by rw [h.pos, hc.header, hc.nch]
  rw [hc.header, hc.loopStart, hc.nch] at b6
  rw [hc.header, hc.loopFinish, hc.nch] at b7
  rw [hc.nch] at b2
  obtain ⟨s1, hs1, hl⟩ := readLoop_step fp hS hd h.plain hset hc.nch b1
    (fun c hcc => by
      rw [hc.nch] at hcc
      have hn := h.plain.nch
      exact ⟨by unfold InI32 at *; omega, hP _ (by omega) (by omega)⟩) hst fuel n hs
  refine ⟨s1, hs1, ?_⟩
  rw [hl, hpos, hc.nch]

/-- **Repeat law** at unit rate. -/
theorem repeat_law (fp : Fp) (hS : SrcIs S I P val) (fuel : Nat) {p : Nat} (hp : p ≤ 52) :
    ∀ (n : Nat) (r : Rd) (q : Int) (s : σ), ULoop r q → r.loopType = .repeat → r.rate = 1 → OnGrid p r.rem →
      0 ≤ r.rem → r.rem < 1 → r.loopStart ≤ q → q ≤ r.loopFinish → I s →
      (∀ i, r.header + r.loopStart * r.nch ≤ i → i < r.header + r.loopFinish * r.nch → P i) →
      ∃ (r' : Rd) (s' : σ), readLoop fp S (fuel + 2) n r s =
          .ok ⟨(repeatFrames q r.loopStart r.loopFinish n).map
            (fun i => frameAt val r.nch (r.header + i * r.nch)), [], r', s'⟩ ∧ I s' ∧ SameConf r r'
  | 0, r, q, s, h, _, _, _, _, _, _, _, hs, _ => ⟨r, s, rfl, hs, SameConf.refl r⟩
  | n + 1, r, q, s, h, hl, hrate, hg, h0, h1, hA, hE, hs, hP => by
    have hn := h.plain.nch
    have hA0 := h.A0
    have hAE := h.AE
    -- the frame read and the state it is read in
    obtain ⟨r1, q1, hset, hu, hc, hq1, hq2, hr1, hrem, hrest, hhead⟩ :
        ∃ r1 q1, Settles r r1 ∧ ULoop r1 q1 ∧ SameConf r r1 ∧ r.loopStart ≤ q1 ∧ q1 < r.loopFinish ∧ r1.rate = r.rate ∧
          r1.rem = r.rem ∧
          repeatFrames (q + 1) r.loopStart r.loopFinish n = repeatFrames (q1 + 1) r.loopStart r.loopFinish n ∧
          r.loopStart + (q - r.loopStart) % (r.loopFinish - r.loopStart) = q1 := by
      have hat := h.atEnd_fwd (by rw [hl]; simp) (by rw [hrate]; norm_num)
      rcases lt_or_eq_of_le hE with hlt | heq
      · refine ⟨r, q, Or.inl ⟨by rw [hat]; simpa using hlt, rfl⟩, h, SameConf.refl r, hA, hlt, rfl, rfl, rfl, ?_⟩
        rw [Int.emod_eq_of_lt (by omega) (by omega)]; ring
      · have hu : ULoop { r with cfOn := false, pos1 := r.posOf r.loopStart } r.loopStart :=
          ⟨⟨h.plain.dual, h.plain.interp, rfl, hn⟩, h.posOf hA0 (le_of_lt hAE), h.header0, hA0, hAE, h.fits⟩
        refine ⟨_, r.loopStart, Or.inr ⟨by rw [hat]; simp [heq], ?_, ?_⟩, hu,
          ⟨rfl, rfl, rfl, rfl, rfl, rfl, rfl, rfl, rfl, rfl, rfl, rfl, rfl, rfl⟩, le_refl _, hAE, rfl, rfl, ?_, ?_⟩
        · unfold wrapAround
          simp only [hl, ge_iff_le, hrate, zero_le_one, if_true]; rfl
        · rw [hu.atEnd_fwd (by simp only; rw [hl]; simp) (by simp only; rw [hrate]; norm_num)]
          simpa using hAE
        · rw [heq, ← repeatFrames_period (r.loopStart + 1)]
          congr 1; ring
        · rw [heq, Int.emod_self]; ring
    have hroom := hu.room (by rw [hc.loopStart]; exact hq1) (by rw [hc.loopFinish]; exact hq2)
    have hst := stepOn_unit fp hp (r := r1) (by rw [hr1, hrate]) (by rw [hrem]; exact hg) (by rw [hrem]; exact h0)
      (by rw [hrem]; exact h1) hu.plain.cfOn hroom.2.2.2.1 hroom.2.1
    obtain ⟨s1, hs1, hl1⟩ := hu.turn fp hS h.plain.dual hset hc (by rw [hc.loopStart]; exact hq1)
      (by rw [hc.loopFinish]; exact hq2) hP hst fuel n hs
    have hc2 : SameConf r { r1 with pos1 := r1.pos1 + r1.nch } :=
      hc.trans ⟨rfl, rfl, rfl, rfl, rfl, rfl, rfl, rfl, rfl, rfl, rfl, rfl, rfl, rfl⟩
    have hu2 : ULoop { r1 with pos1 := r1.pos1 + r1.nch } (q1 + 1) :=
      ⟨⟨hu.plain.dual, hu.plain.interp, hu.plain.cfOn, hu.plain.nch⟩, by simp only; rw [hu.pos]; ring, hu.header0, hu.A0,
        hu.AE, hu.fits⟩
    obtain ⟨r', s', h3, h4, h5⟩ := repeat_law fp hS fuel hp n { r1 with pos1 := r1.pos1 + r1.nch } (q1 + 1) s1 hu2
      (by simp only; rw [hc.loopType, hl]) (by simp only; rw [hr1, hrate]) (by simp only; rw [hrem]; exact hg)
      (by simp only; rw [hrem]; exact h0) (by simp only; rw [hrem]; exact h1)
      (by simp only; rw [hc.loopStart]; omega) (by simp only; rw [hc.loopFinish]; omega) hs1
      (by rw [hc2.header, hc2.loopStart, hc2.loopFinish, hc2.nch]; exact hP)
    refine ⟨r', s', ?_, h4, hc2.trans h5⟩
    rw [hl1, h3, repeatFrames_succ, hhead, hrest]
    simp only [ok_bind, hc2.nch, hc2.header, hc.loopStart, hc.loopFinish, hc.nch, hc.header, List.map_cons]

/-- The frame delivered in phase `j` of a ping-pong cycle over `[a, b)` whose way down starts at `b - c`. -/
def ppFrame (a b c j : Int) : Int := if j < b - a then a + j else a + (2 * (b - a) - c - j)

/-- State of a unit-rate ping-pong reader in phase `j`: going up at frame `a + j`, or going down. -/
def PPhase (r : Rd) (j : Int) : Prop :=
  (r.rate = 1 ∧ 0 ≤ j ∧ j ≤ r.loopFinish - r.loopStart ∧ ULoop r (r.loopStart + j)) ∨
  (r.rate = -1 ∧ r.loopFinish - r.loopStart ≤ j ∧ j ≤ 2 * (r.loopFinish - r.loopStart) - r.nch + 1 ∧
    ULoop r (r.loopStart + (2 * (r.loopFinish - r.loopStart) - r.nch - j)))

/-- Where the next frame of a ping-pong cycle is read. -/
theorem PPhase.settle {r : Rd} {j : Int} (h : PPhase r j) (hl : r.loopType = .pingpong)
    (hlow : r.playStart ≠ .sample ∨ r.loopStart = 0) (hroom : r.nch ≤ r.loopFinish - r.loopStart) :
    ∃ r1 j1, Settles r r1 ∧ SameConf r r1 ∧ r1.rem = r.rem ∧
      j1 = j % (2 * (r.loopFinish - r.loopStart) - r.nch + 1) ∧
      ((r1.rate = 1 ∧ 0 ≤ j1 ∧ j1 < r.loopFinish - r.loopStart ∧ ULoop r1 (r.loopStart + j1)) ∨
       (r1.rate = -1 ∧ r.loopFinish - r.loopStart ≤ j1 ∧ j1 < 2 * (r.loopFinish - r.loopStart) - r.nch + 1 ∧
        ULoop r1 (r.loopStart + (2 * (r.loopFinish - r.loopStart) - r.nch - j1)))) := by
  rcases h with ⟨hr, h0, h1, hu⟩ | ⟨hr, h0, h1, hu⟩
  · have hn := hu.plain.nch
    have hat := hu.atEnd_fwd (by rw [hl]; simp) (by rw [hr]; norm_num)
    rcases lt_or_eq_of_le h1 with hlt | heq
    · refine ⟨r, j, Or.inl ⟨by rw [hat]; simp only [decide_eq_false_iff_not]; omega, rfl⟩, SameConf.refl r, rfl, ?_,
        Or.inl ⟨hr, h0, hlt, hu⟩⟩
      rw [Int.emod_eq_of_lt h0 (by omega)]
    · have hpb := hu.posOf (x := r.loopFinish - r.nch) (by have := hu.A0; omega) (by omega)
      have hu' : ULoop { r with cfOn := false, pos1 := r.posOf (r.loopFinish - r.nch), rate := -r.rate }
          (r.loopFinish - r.nch) :=
        ⟨⟨hu.plain.dual, hu.plain.interp, rfl, hn⟩, hpb, hu.header0, hu.A0, hu.AE, hu.fits⟩
      refine ⟨{ r with cfOn := false, pos1 := r.posOf (r.loopFinish - r.nch), rate := -r.rate }, j, Or.inr ⟨by rw [hat]; simp only [decide_eq_true_eq]; omega, ?_, ?_⟩,
        ⟨rfl, rfl, rfl, rfl, rfl, rfl, rfl, rfl, rfl, rfl, rfl, rfl, rfl, rfl⟩, rfl, ?_,
        Or.inr ⟨by simp only; rw [hr], by omega, by omega, ?_⟩⟩
      · unfold wrapAround
        simp only [hl, ge_iff_le, if_pos (show (0 : ℚ) ≤ r.rate by rw [hr]; norm_num)]; rfl
      · rw [hu'.atEnd_rev hlow (by simp only; rw [hr]; norm_num)]
        simp only [decide_eq_false_iff_not]; omega
      · rw [Int.emod_eq_of_lt h0 (by omega)]
      · convert hu' using 1; omega
  · have hn := hu.plain.nch
    have hat := hu.atEnd_rev hlow (by rw [hr]; norm_num)
    rcases lt_or_eq_of_le h1 with hlt | heq
    · refine ⟨r, j, Or.inl ⟨by rw [hat]; simp only [decide_eq_false_iff_not]; omega, rfl⟩, SameConf.refl r, rfl, ?_,
        Or.inr ⟨hr, h0, hlt, hu⟩⟩
      rw [Int.emod_eq_of_lt (by omega) hlt]
    · have hst : (if r.playStart = .sample then r.header else r.posOf r.loopStart) = r.header + r.loopStart * r.nch := by
        by_cases hs : r.playStart = .sample
        · rw [if_pos hs]
          have hA : r.loopStart = 0 := by
            rcases hlow with h1 | h1
            · exact absurd hs h1
            · exact h1
          rw [hA]; ring
        · rw [if_neg hs, hu.posOf hu.A0 (le_of_lt hu.AE)]
      have hu' : ULoop { r with cfOn := false, pos1 := (if r.playStart = .sample then r.header else r.posOf r.loopStart),
                                rate := -r.rate } r.loopStart :=
        ⟨⟨hu.plain.dual, hu.plain.interp, rfl, hn⟩, hst, hu.header0, hu.A0, hu.AE, hu.fits⟩
      refine ⟨{ r with cfOn := false, pos1 := (if r.playStart = .sample then r.header else r.posOf r.loopStart),
                       rate := -r.rate }, 0, Or.inr ⟨by rw [hat]; simp only [decide_eq_true_eq]; omega, ?_, ?_⟩,
        ⟨rfl, rfl, rfl, rfl, rfl, rfl, rfl, rfl, rfl, rfl, rfl, rfl, rfl, rfl⟩, rfl, ?_,
        Or.inl ⟨by simp only; rw [hr]; norm_num, le_refl _, by omega, by rw [add_zero]; exact hu'⟩⟩
      · unfold wrapAround
        simp only [hl, ge_iff_le, if_neg (show ¬ (0 : ℚ) ≤ r.rate by rw [hr]; norm_num)]; rfl
      · rw [hu'.atEnd_fwd (by simp only; rw [hl]; simp) (by simp only; rw [hr]; norm_num)]
        simp only [decide_eq_false_iff_not]; have := hu.AE; omega
      · rw [heq, Int.emod_self]

/-- **Ping-pong law** at unit rate. -/
theorem pingpong_law (fp : Fp) (hS : SrcIs S I P val) (fuel : Nat) :
    ∀ (n : Nat) (r : Rd) (j : Int) (s : σ), PPhase r j → r.loopType = .pingpong → r.rem = 0 →
      (r.playStart ≠ .sample ∨ r.loopStart = 0) → r.nch ≤ r.loopFinish - r.loopStart → I s →
      (∀ i, r.header + r.loopStart * r.nch ≤ i → i < r.header + r.loopFinish * r.nch → P i) →
      ∃ (r' : Rd) (s' : σ), readLoop fp S (fuel + 2) n r s =
          .ok ⟨(pingpongFrames (r.loopStart + j) r.loopStart r.loopFinish r.nch n).map
            (fun i => frameAt val r.nch (r.header + i * r.nch)), [], r', s'⟩ ∧ I s' ∧ SameConf r r'
  | 0, r, j, s, h, _, _, _, _, hs, _ => ⟨r, s, rfl, hs, SameConf.refl r⟩
  | n + 1, r, j, s, h, hl, hrem, hlow, hroom, hs, hP => by
    obtain ⟨r1, j1, hset, hc, hrem1, hj1, hcase⟩ := h.settle hl hlow hroom
    have hd : r.dual = false := by rcases h with ⟨_, _, _, hu⟩ | ⟨_, _, _, hu⟩ <;> exact hu.plain.dual
    have hn : 0 < r.nch := by rcases h with ⟨_, _, _, hu⟩ | ⟨_, _, _, hu⟩ <;> exact hu.plain.nch
    -- one turn, leaving the reader in phase `j1 + 1`
    obtain ⟨r2, hph, hc2, hrem2, s1, hs1, hturn⟩ : ∃ r2, PPhase r2 (j1 + 1) ∧ SameConf r r2 ∧ r2.rem = 0 ∧
        ∃ s1, I s1 ∧ readLoop fp S (fuel + 2) (n + 1) r s =
          (readLoop fp S (fuel + 2) n r2 s1 >>= fun o => .ok { o with
            frames := frameAt val r.nch (r.header + ppFrame r.loopStart r.loopFinish r.nch j1 * r.nch) :: o.frames }) := by
      rcases hcase with ⟨hr1, a0, a1, hu⟩ | ⟨hr1, a0, a1, hu⟩
      · have b0 : r1.loopStart ≤ r.loopStart + j1 := by rw [hc.loopStart]; omega
        have b1 : r.loopStart + j1 < r1.loopFinish := by rw [hc.loopFinish]; omega
        have hro := hu.room b0 b1
        have hst := stepOn_unit fp (p := 0) (by norm_num) (r := r1) hr1 (by rw [hrem1, hrem]; simpa using OnGrid.int 0 0)
          (by rw [hrem1, hrem]) (by rw [hrem1, hrem]; norm_num) hu.plain.cfOn hro.2.2.2.1 hro.2.1
        obtain ⟨s1, hs1, ht⟩ := hu.turn fp hS hd hset hc b0 b1 hP hst fuel n hs
        refine ⟨{ r1 with pos1 := r1.pos1 + r1.nch }, Or.inl ⟨hr1, by omega, ?_, ?_⟩, hc.trans ⟨rfl, rfl, rfl, rfl, rfl, rfl, rfl, rfl, rfl, rfl, rfl, rfl, rfl, rfl⟩,
          by simp only; rw [hrem1, hrem], s1, hs1, ?_⟩
        · simp only; rw [hc.loopFinish, hc.loopStart]; omega
        · refine ⟨⟨hu.plain.dual, hu.plain.interp, hu.plain.cfOn, hu.plain.nch⟩, ?_, hu.header0, hu.A0, hu.AE, hu.fits⟩
          simp only
          rw [hu.pos, hc.loopStart]; ring
        · rw [ht]; unfold ppFrame; rw [if_pos a1]
      · have b0 : r1.loopStart ≤ r.loopStart + (2 * (r.loopFinish - r.loopStart) - r.nch - j1) := by
          rw [hc.loopStart]; omega
        have b1 : r.loopStart + (2 * (r.loopFinish - r.loopStart) - r.nch - j1) < r1.loopFinish := by
          rw [hc.loopFinish]; omega
        have hro := hu.room b0 b1
        have hst := stepOn_unit_rev fp (r := r1) hr1 (by rw [hrem1, hrem]) hu.plain.cfOn hro.2.2.2.2.1 hro.2.2.1
        obtain ⟨s1, hs1, ht⟩ := hu.turn fp hS hd hset hc b0 b1 hP hst fuel n hs
        refine ⟨{ r1 with pos1 := r1.pos1 - r1.nch }, Or.inr ⟨hr1, ?_, ?_, ?_⟩, hc.trans ⟨rfl, rfl, rfl, rfl, rfl, rfl, rfl, rfl, rfl, rfl, rfl, rfl, rfl, rfl⟩,
          by simp only; rw [hrem1, hrem], s1, hs1, ?_⟩
        · simp only; rw [hc.loopFinish, hc.loopStart]; omega
        · simp only; rw [hc.loopFinish, hc.loopStart, hc.nch]; omega
        · refine ⟨⟨hu.plain.dual, hu.plain.interp, hu.plain.cfOn, hu.plain.nch⟩, ?_, hu.header0, hu.A0, hu.AE, hu.fits⟩
          simp only
          rw [hu.pos, hc.loopStart, hc.loopFinish, hc.nch]; ring
        · rw [ht]; unfold ppFrame; rw [if_neg (by omega)]
    obtain ⟨r', s', h3, h4, h5⟩ := pingpong_law fp hS fuel n r2 (j1 + 1) s1 hph (by rw [hc2.loopType, hl]) hrem2
      (by rw [hc2.playStart, hc2.loopStart]; exact hlow) (by rw [hc2.nch, hc2.loopFinish, hc2.loopStart]; exact hroom) hs1
      (by rw [hc2.header, hc2.loopStart, hc2.loopFinish, hc2.nch]; exact hP)
    refine ⟨r', s', ?_, h4, hc2.trans h5⟩
    have hper : pingpongFrames (r.loopStart + j + 1) r.loopStart r.loopFinish r.nch n =
        pingpongFrames (r.loopStart + (j1 + 1)) r.loopStart r.loopFinish r.nch n := by
      unfold pingpongFrames
      apply List.map_congr_left
      intro k _
      simp only
      have e : ((k : Int) + (r.loopStart + j + 1) - r.loopStart) % (2 * (r.loopFinish - r.loopStart) - r.nch + 1) =
          ((k : Int) + (r.loopStart + (j1 + 1)) - r.loopStart) % (2 * (r.loopFinish - r.loopStart) - r.nch + 1) := by
        rw [show (k : Int) + (r.loopStart + j + 1) - r.loopStart = (k + 1) + j by ring,
          show (k : Int) + (r.loopStart + (j1 + 1)) - r.loopStart = (k + 1) + j1 by ring, hj1, Int.add_emod_emod]
      rw [e]
    rw [hturn, h3, pingpongFrames_succ, hper, hc2.nch, hc2.header, hc2.loopStart, hc2.loopFinish]
    simp only [ok_bind, List.map_cons]
    rw [show r.loopStart + j - r.loopStart = j by ring, ← hj1]
    rfl

end TVP
