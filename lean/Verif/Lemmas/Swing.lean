import Verif.Lemmas.Path
import Verif.Spec.Swing

/-!
# Array players going to and fro at any speed
-/

namespace TVP
open Spec

variable {fp : Fp} {data : List Int} {H nch : Nat}

/-! ## Steps of the position -/

theorem trunc_neg (q : ℚ) : trunc (-q) = -trunc q := by
  rcases le_total 0 q with h | h
  · rw [trunc_of_nonneg h, trunc_of_nonpos (by linarith), Int.ceil_neg]
  · rw [trunc_of_nonpos h, trunc_of_nonneg (by linarith), Int.floor_neg]

/-- A step up, from a position that may lie up to a frame below `A`. -/
theorem trunc_up {A : Int} {z v : ℚ} (hv : 0 ≤ v) (hz : (A : ℚ) - 1 < z) : trunc (z - (max ⌊z⌋ A : Int) + v) = max ⌊z + v⌋ A - max ⌊z⌋ A := by
  have h1 : A - 1 ≤ ⌊z⌋ := by rw [Int.le_floor]; push_cast; linarith
  have h2 : ⌊z⌋ ≤ ⌊z + v⌋ := Int.floor_le_floor (by linarith)
  rcases le_or_gt A ⌊z⌋ with h | h
  · rw [max_eq_left h, max_eq_left (by omega), trunc_of_nonneg (by have := Int.floor_le z; linarith), show z - (⌊z⌋ : ℚ) + v = z + v - (⌊z⌋ : Int) by ring,
      Int.floor_sub_intCast]
  · rw [max_eq_right (by omega)]
    rcases le_or_gt (A : ℚ) (z + v) with h3 | h3
    · have h4 : A ≤ ⌊z + v⌋ := Int.le_floor.2 h3
      rw [max_eq_left h4, trunc_of_nonneg (by linarith), show z - (A : ℚ) + v = z + v - (A : Int) by ring, Int.floor_sub_intCast]
    · have h4 : ⌊z + v⌋ < A := Int.floor_lt.2 h3
      rw [max_eq_right (by omega), trunc_of_nonpos (by linarith), sub_self, Int.ceil_eq_iff]
      push_cast
      constructor <;> linarith

/-- A step down, from a position that may lie up to a frame above `C`. -/
theorem trunc_down {C : Int} {z v : ℚ} (hv : 0 ≤ v) (hz : z < (C : ℚ) + 1) : trunc (z - (min ⌈z⌉ C : Int) - v) = min ⌈z - v⌉ C - min ⌈z⌉ C := by
  have h := trunc_up (A := -C) (z := -z) hv (by push_cast; linarith)
  have e : ∀ a : Int, max (-a) (-C) = -min a C := fun a => by omega
  rw [Int.floor_neg, e, show -z + v = -(z - v) by ring, Int.floor_neg, e] at h
  have e2 : z - (min ⌈z⌉ C : Int) - v = -(-z - ((-min ⌈z⌉ C : Int) : ℚ) + v) := by push_cast; ring
  rw [e2, trunc_neg, h]
  ring

/-- A position that has turned is in the loop. -/
theorem Swing.turn_lt {A E : Int} (w : Swing) (hn : 1 ≤ nch) (hAE : A + nch ≤ E) : (w.turn A E nch).frame A E nch < E := by
  have hn0 : (0 : Int) < nch := by exact_mod_cast hn
  cases hu : w.up
  · by_cases h : ⌈w.y⌉ < A
    · have hw : w.turn A E nch = ⟨A + (w.y - ⌈w.y⌉), true⟩ := by unfold Swing.turn; rw [hu, if_neg (by decide), if_pos h]
      rw [hw]
      show max _ A < E
      have : ⌊(A : ℚ) + (w.y - ⌈w.y⌉)⌋ ≤ A := by
        rw [Int.floor_le_iff]
        have := Int.le_ceil w.y
        linarith
      exact max_lt (lt_of_le_of_lt this (by omega)) (by omega)
    · have hw : w.turn A E nch = w := by unfold Swing.turn; rw [hu, if_neg (by decide), if_neg h]
      rw [hw]
      unfold Swing.frame
      rw [hu, if_neg (by decide)]
      omega
  · by_cases h : E ≤ ⌊w.y⌋
    · have hw : w.turn A E nch = ⟨(E - nch : Int) + Int.fract w.y, false⟩ := by unfold Swing.turn; rw [hu, if_pos rfl, if_pos h]
      rw [hw]
      show min _ (E - nch) < E
      omega
    · have hw : w.turn A E nch = w := by unfold Swing.turn; rw [hu, if_pos rfl, if_neg h]
      rw [hw]
      unfold Swing.frame
      rw [hu, if_pos rfl]
      omega

theorem swingAt_lt {A E : Int} {w : Swing} {v : ℚ} (hn : 1 ≤ nch) (hAE : A + nch ≤ E) (h : w.frame A E nch < E) :
    ∀ t, (swingAt A E nch w v t).frame A E nch < E
  | 0 => h
  | _ + 1 => Swing.turn_lt _ hn hAE

/-! ## Readers -/

/-- A reader at `w`, possibly just behind the point where it turns. -/
structure Swinging (A E : Int) (p : Nat) (R : Int) (v : ℚ) (w : Swing) (nch : Nat) (r : Rd) : Prop where
  looping : Looping .pingpong A E (w.frame A E nch) r
  low : r.playStart ≠ .sample ∨ r.loopStart = 0
  rate : r.rate = if w.up then v else -v
  rem : r.rem = w.y - (w.frame A E nch : Int)
  grid : OnGrid p w.y
  above : w.up = true → (A : ℚ) - 1 < w.y ∧ w.y < E + R
  below : w.up = false → w.y < ((E - nch : Int) : ℚ) + 1 ∧ (A : ℚ) - R - 1 < w.y

/-- A reader that has delivered `t` frames. -/
def Swings (A E : Int) (p : Nat) (R : Int) (w0 : Swing) (v : ℚ) (nch t : Nat) (r : Rd) : Prop :=
  ∃ w, Swinging A E p R v w nch r ∧ swingAt A E nch w0 v t = w.turn A E nch

theorem Swinging.rest {A E : Int} {p : Nat} {R : Int} {v : ℚ} {w : Swing} {r : Rd} (h : Swinging A E p R v w nch r) : |r.rem| < 1 := by
  rw [h.rem]
  unfold Swing.frame
  cases hu : w.up
  · obtain ⟨h1, -⟩ := h.below hu
    simp only [Bool.false_eq_true, if_false]
    have h3 := Int.le_ceil w.y
    have h4 := Int.ceil_lt_add_one w.y
    rw [abs_lt]
    rcases le_total ⌈w.y⌉ (E - nch) with h2 | h2
    · rw [min_eq_left h2]; constructor <;> linarith
    · rw [min_eq_right h2]
      have h5 : ((E - nch : Int) : ℚ) ≤ ⌈w.y⌉ := by exact_mod_cast h2
      constructor <;> linarith
  · obtain ⟨h1, -⟩ := h.above hu
    simp only [if_true]
    have h3 := Int.floor_le w.y
    have h4 := Int.lt_floor_add_one w.y
    rw [abs_lt]
    rcases le_total A ⌊w.y⌋ with h2 | h2
    · rw [max_eq_left h2]; constructor <;> linarith
    · rw [max_eq_right h2]
      have h5 : (⌊w.y⌋ : ℚ) ≤ A := by exact_mod_cast h2
      constructor <;> linarith

/-- Turning. -/
theorem Swinging.settle {A E : Int} {p : Nat} {R : Int} {v : ℚ} {w : Swing} {r : Rd} (h : Swinging A E p R v w nch r) (hA : 0 ≤ A) (hn : 1 ≤ nch)
    (hAE : A + nch ≤ E) (hv0 : 0 < v) (hvR : v ≤ R) (hc : r.nch = nch) :
    ∃ r1, Settles r r1 ∧ SameConf r r1 ∧ Swinging A E p R v (w.turn A E nch) nch r1 ∧ A ≤ (w.turn A E nch).frame A E nch ∧ (w.turn A E nch).frame A E nch < E := by
  have hn0 : (0 : Int) < nch := by exact_mod_cast hn
  have hR0 : (0 : ℚ) < R := lt_of_lt_of_le hv0 hvR
  have hu := h.looping.at_
  have hl := h.looping.loop
  cases hup : w.up
  · -- down
    have hneg : r.rate < 0 := by rw [h.rate, hup]; simp only [Bool.false_eq_true, if_false]; linarith
    have hat := hu.atEnd_rev h.low hneg
    have hfr : w.frame A E nch = min ⌈w.y⌉ (E - nch) := by unfold Swing.frame; rw [hup]; rfl
    rw [h.looping.ls, hfr] at hat
    by_cases hlt : ⌈w.y⌉ < A
    · have hw : w.turn A E nch = ⟨A + (w.y - ⌈w.y⌉), true⟩ := by unfold Swing.turn; rw [hup, if_neg (by decide), if_pos hlt]
      have h3 := Int.le_ceil w.y
      have h4 := Int.ceil_lt_add_one w.y
      have hf2 : (⟨A + (w.y - ⌈w.y⌉), true⟩ : Swing).frame A E nch = A := by
        unfold Swing.frame
        simp only [if_true]
        have : ⌊(A : ℚ) + (w.y - ⌈w.y⌉)⌋ ≤ A := by rw [Int.floor_le_iff]; linarith
        exact max_eq_right this
      rw [hw, hf2]
      have hps := hu.posOf (x := r.loopStart) hu.A0 (le_of_lt hu.AE)
      have hps0 : r.playStart = .sample → r.posOf r.loopStart = r.header := by
        intro e
        rcases h.low with h' | h'
        · exact absurd e h'
        · rw [hps, h', zero_mul, add_zero]
      have hwrap : wrapAround r = some { r with cfOn := false, pos1 := r.posOf r.loopStart, rate := -r.rate } := by
        unfold wrapAround
        simp only [hl, ge_iff_le, if_neg (not_le.2 hneg)]
        split
        · rename_i e; rw [hps0 e]
        · rfl
      have hu' : ULoop { r with cfOn := false, pos1 := r.posOf r.loopStart, rate := -r.rate } A :=
        ⟨⟨hu.plain.dual, hu.plain.interp, rfl, hu.plain.nch⟩, by rw [← h.looping.ls]; exact hps, hu.header0, hu.A0, hu.AE, hu.fits⟩
      refine ⟨_, Or.inr ⟨by rw [hat]; simpa using Or.inl hlt, hwrap, ?_⟩, ⟨rfl, rfl, rfl, rfl, rfl, rfl, rfl, rfl, rfl, rfl, rfl, rfl, rfl, rfl⟩, ⟨⟨by rw [hf2]; exact hu', hl, h.looping.ls,
        h.looping.lf⟩, h.low, ?_, ?_, ?_, ?_, fun e => nomatch e⟩, le_refl _, by omega⟩
      · rw [hu'.atEnd_fwd (by simp only; rw [hl]; simp) (by simp only; linarith)]
        simp only [h.looping.lf, decide_eq_false_iff_not]; omega
      · simp only; rw [h.rate, hup]; simp
      · simp only
        rw [h.rem, hf2, hfr, min_eq_left (by omega)]; ring
      · exact (OnGrid.int p A).add (h.grid.sub (OnGrid.int p _))
      · intro _
        have : (A : ℚ) + 1 ≤ E := by exact_mod_cast (show A + 1 ≤ E by omega)
        constructor <;> simp only <;> linarith
    · have hw : w.turn A E nch = w := by unfold Swing.turn; rw [hup, if_neg (by decide), if_neg hlt]
      rw [hw]
      exact ⟨r, Or.inl ⟨by rw [hat]; simp only [decide_eq_false_iff_not]; omega, rfl⟩, SameConf.refl r, h, by rw [hfr]; omega, by rw [hfr]; omega⟩
  · -- up
    have hpos : 0 ≤ r.rate := by rw [h.rate, hup]; simp only [if_true]; linarith
    have hat := hu.atEnd_fwd (by rw [hl]; simp) hpos
    have hfr : w.frame A E nch = max ⌊w.y⌋ A := by unfold Swing.frame; rw [hup]; rfl
    rw [h.looping.lf, hfr] at hat
    by_cases hlt : E ≤ ⌊w.y⌋
    · have hw : w.turn A E nch = ⟨(E - nch : Int) + Int.fract w.y, false⟩ := by unfold Swing.turn; rw [hup, if_pos rfl, if_pos hlt]
      have h3 := Int.fract_nonneg w.y
      have h4 := Int.fract_lt_one w.y
      have hf2 : (⟨(E - nch : Int) + Int.fract w.y, false⟩ : Swing).frame A E nch = E - nch := by
        unfold Swing.frame
        simp only [Bool.false_eq_true, if_false]
        have : E - nch ≤ ⌈((E - nch : Int) : ℚ) + Int.fract w.y⌉ := by rw [Int.le_ceil_iff]; push_cast; linarith
        exact min_eq_right this
      rw [hw, hf2]
      have hps := hu.posOf (x := r.loopFinish - r.nch) (by rw [h.looping.lf, hc]; omega) (by rw [hc]; omega)
      have hwrap : wrapAround r = some { r with cfOn := false, pos1 := r.posOf (r.loopFinish - r.nch), rate := -r.rate } := by
        unfold wrapAround
        simp only [hl, ge_iff_le, if_pos hpos]
        rfl
      have hu' : ULoop { r with cfOn := false, pos1 := r.posOf (r.loopFinish - r.nch), rate := -r.rate } (E - nch) := by
        refine ⟨⟨hu.plain.dual, hu.plain.interp, rfl, hu.plain.nch⟩, ?_, hu.header0, hu.A0, hu.AE, hu.fits⟩
        rw [← h.looping.lf, ← hc]; exact hps
      have hneg : -r.rate < 0 := by rw [h.rate, hup]; simp only [if_true]; linarith
      refine ⟨_, Or.inr ⟨by rw [hat]; simpa using Or.inl hlt, hwrap, ?_⟩, ⟨rfl, rfl, rfl, rfl, rfl, rfl, rfl, rfl, rfl, rfl, rfl, rfl, rfl, rfl⟩, ⟨⟨by rw [hf2]; exact hu', hl, h.looping.ls,
        h.looping.lf⟩, h.low, ?_, ?_, ?_, (fun e => nomatch e), ?_⟩, by omega, by omega⟩
      · rw [hu'.atEnd_rev h.low hneg]
        simp only [h.looping.ls, decide_eq_false_iff_not]; omega
      · simp only; rw [h.rate, hup]; simp
      · simp only
        rw [h.rem, hf2, hfr, max_eq_left (by omega)]
        unfold Int.fract; ring
      · have : OnGrid p (Int.fract w.y) := h.grid.sub (OnGrid.int p _)
        exact (OnGrid.int p _).add this
      · intro _
        have : (A : ℚ) ≤ ((E - nch : Int) : ℚ) := by exact_mod_cast (show A ≤ E - nch by omega)
        constructor <;> simp only <;> linarith
    · have hw : w.turn A E nch = w := by unfold Swing.turn; rw [hup, if_pos rfl, if_neg hlt]
      rw [hw]
      exact ⟨r, Or.inl ⟨by rw [hat]; simp only [decide_eq_false_iff_not]; omega, rfl⟩, SameConf.refl r, h, by rw [hfr]; omega, by rw [hfr]; omega⟩

/-- Moving on. -/
theorem Swinging.step {A E : Int} {p : Nat} {R : Int} {v : ℚ} {w : Swing} {r : Rd} (h : Swinging A E p R v w nch r) (hA : 0 ≤ A) (hn : 1 ≤ nch)
    (hAE : A + nch ≤ E) (hv0 : 0 < v) (hvR : v ≤ R) (hg : GridRate p v) (hc : r.nch = nch) (hH : r.header = H) (hfit : (H : Int) + nch * (E + R + 1) ≤ 2147483647)
    (hlo : A ≤ w.frame A E nch) (hhi : w.frame A E nch < E) :
    ∃ r2, stepOn fp r = .ok r2 ∧ SameConf r r2 ∧ Swinging A E p R v (w.move v) nch r2 := by
  have hn0 : (0 : Int) < nch := by exact_mod_cast hn
  have hH0 : (0 : Int) ≤ H := Int.natCast_nonneg _
  have hR0 : 0 < R := by
    have : (0 : ℚ) < R := lt_of_lt_of_le hv0 hvR
    exact_mod_cast this
  have hu := h.looping.at_
  have hmu : (w.move v).up = w.up := rfl
  obtain ⟨ht, hg1, hb1, hb2, hb3⟩ : trunc (r.rem + r.rate) = (w.move v).frame A E nch - w.frame A E nch ∧ OnGrid p (w.move v).y ∧
      (w.up = true → (A : ℚ) - 1 < (w.move v).y ∧ (w.move v).y < E + R) ∧ (w.up = false → (w.move v).y < ((E - nch : Int) : ℚ) + 1 ∧ (A : ℚ) - R - 1 < (w.move v).y) ∧
      (A - R - 1 ≤ (w.move v).frame A E nch ∧ (w.move v).frame A E nch ≤ E + R) := by
    rw [h.rem, h.rate]
    unfold Swing.frame Swing.move at *
    cases hup : w.up
    · rw [hup] at hlo hhi
      simp only [Bool.false_eq_true, if_false] at hlo hhi ⊢
      obtain ⟨b1, b2⟩ := h.below hup
      have h4 := Int.ceil_lt_add_one w.y
      have hAy : (A : ℚ) - 1 < w.y := by
        have : (A : ℚ) ≤ ⌈w.y⌉ := by exact_mod_cast (show A ≤ ⌈w.y⌉ by omega)
        linarith
      have hcl : A - R - 1 ≤ ⌈w.y - v⌉ := by
        have : A - R - 1 < ⌈w.y - v⌉ := by rw [Int.lt_ceil]; push_cast; linarith
        omega
      refine ⟨?_, h.grid.sub hg.grid, (fun e => nomatch e), fun _ => ⟨by linarith, by linarith⟩, by omega, by omega⟩
      rw [← sub_eq_add_neg]
      exact trunc_down (le_of_lt hv0) b1
    · rw [hup] at hlo hhi
      simp only [if_true] at hlo hhi ⊢
      obtain ⟨b1, b2⟩ := h.above hup
      have hyE : w.y < E := by
        have h5 := Int.lt_floor_add_one w.y
        have : (⌊w.y⌋ : ℚ) + 1 ≤ E := by exact_mod_cast (show ⌊w.y⌋ + 1 ≤ E by omega)
        linarith
      have hfl : ⌊w.y + v⌋ ≤ E + R := by
        have : ⌊w.y + v⌋ < E + R := by rw [Int.floor_lt]; push_cast; linarith
        omega
      exact ⟨trunc_up (le_of_lt hv0) b1, h.grid.add hg.grid, fun _ => ⟨by linarith, by linarith⟩, (fun e => nomatch e), by omega, by omega⟩
  have hrest := h.rest
  have hrem := h.rem
  generalize w.frame A E nch = f at *
  obtain ⟨f', hf'⟩ : ∃ f', f' = (w.move v).frame A E nch := ⟨_, rfl⟩
  rw [← hf'] at ht hb3
  have f1 := frame_fits' hH0 (le_of_lt hn0) (show -(E + R + 1) ≤ f' by omega) (show f' ≤ E + R + 1 by omega) hfit
  have f2 := frame_fits' hH0 (le_of_lt hn0) (show -(E + R + 1) ≤ f' - f by omega) (show f' - f ≤ E + R + 1 by omega) hfit
  have hpos : r.pos1 + trunc (r.rem + r.rate) * r.nch = H + f' * nch := by rw [hu.pos, ht, hH, hc]; ring
  have hgr : GridRate p r.rate := by rw [h.rate]; split <;> [exact hg; exact hg.neg]
  have hst := stepOn_grid fp (r := r) (p := p) hgr (by rw [h.rem]; exact h.grid.sub (OnGrid.int p _)) hrest hu.plain.cfOn (by rw [ht, hc]; exact ⟨by omega, by omega⟩)
    (by rw [hpos]; exact ⟨by omega, by omega⟩)
  refine ⟨_, hst, ⟨rfl, rfl, rfl, rfl, rfl, rfl, rfl, rfl, rfl, rfl, rfl, rfl, rfl, rfl⟩, ⟨⟨⟨⟨hu.plain.dual, hu.plain.interp, hu.plain.cfOn, hu.plain.nch⟩, ?_, hu.header0, hu.A0, hu.AE,
    hu.fits⟩, h.looping.loop, h.looping.ls, h.looping.lf⟩, h.low, h.rate, ?_, hg1, hb1, hb2⟩⟩
  · simp only; rw [hpos, hH, hc, ← hf']
  · simp only
    rw [ht, ← hf', hrem, h.rate]
    unfold Swing.move
    cases w.up <;> simp only [Bool.false_eq_true, if_false, if_true, Int.cast_sub] <;> ring

theorem swing_turns {A E : Int} {p : Nat} {R : Int} {w0 : Swing} {v : ℚ} (hA : 0 ≤ A) (hn : 1 ≤ nch) (hAE : A + nch ≤ E) (hv0 : 0 < v) (hvR : v ≤ R) (hg : GridRate p v)
    (hfit : (H : Int) + nch * (E + R + 1) ≤ 2147483647) (hlen : H + E * nch ≤ data.length) :
    Turns fp data H nch (swingPath A E nch w0 v) (Swings A E p R w0 v nch) where
  ends := fun _ h => nomatch h
  dual h := by obtain ⟨w, h, -⟩ := h; exact h.looping.at_.plain.dual
  stop h e := nomatch e
  go {t r i} h hc hH e := by
    obtain ⟨w, h, hw⟩ := h
    obtain ⟨r1, s1, s2, s3, s4, s5⟩ := h.settle hA hn hAE hv0 hvR hc
    have hc1 : r1.nch = nch := s2.nch.trans hc
    have hH1 : r1.header = H := s2.header.trans hH
    obtain ⟨r2, k1, k2, k3⟩ := s3.step (fp := fp) hA hn hAE hv0 hvR hg hc1 hH1 hfit s4 s5
    have hn0 : (0 : Int) < nch := by exact_mod_cast hn
    have hH0 : (0 : Int) ≤ H := Int.natCast_nonneg _
    have hR0 : 0 < R := by
      have : (0 : ℚ) < R := lt_of_lt_of_le hv0 hvR
      exact_mod_cast this
    have hi : i = ((w.turn A E nch).frame A E nch).toNat := by
      unfold swingPath at e
      rw [hw] at e
      exact (Option.some.inj e).symm
    have ei : (i : Int) = (w.turn A E nch).frame A E nch := by rw [hi]; exact Int.toNat_of_nonneg (by omega)
    have f3 := frame_fits hH0 (le_of_lt hn0) (show 0 ≤ (w.turn A E nch).frame A E nch + 1 by omega) (show (w.turn A E nch).frame A E nch + 1 ≤ E + R + 1 by omega) hfit
    have f4 : ((w.turn A E nch).frame A E nch + 1) * nch ≤ E * nch := mul_le_mul_of_nonneg_right (by omega) (le_of_lt hn0)
    refine ⟨r1, r2, s1, s3.looping.at_.plain, s2, by rw [s3.looping.at_.pos, hH1, hc1, ei], ?_, by rw [ei]; exact f3.2, k1, s2.trans k2, (w.turn A E nch).move v, k3, ?_⟩
    · have : ((H + (i + 1) * nch : Nat) : Int) ≤ data.length := by push_cast; rw [ei]; omega
      exact_mod_cast this
    · show ((swingAt A E nch w0 v t).move v).turn A E nch = _
      rw [hw]

end TVP
