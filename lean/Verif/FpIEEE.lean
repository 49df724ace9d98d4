import Mathlib.Data.Int.Log
import Verif.Lemmas.Fp

/-!
# Round-to-nearest, ties-to-even

The IEEE-754 default rounding is an admissible rounding function, so nothing in the development is vacuous in
its floating-point parameter, and claims about actual hardware results can be evaluated.
-/

namespace TVP

/-- Nearest integer, ties to even. -/
def rne (q : ℚ) : Int :=
  if q - ⌊q⌋ < 1 / 2 then ⌊q⌋
  else if 1 / 2 < q - ⌊q⌋ then ⌊q⌋ + 1
  else if ⌊q⌋ % 2 = 0 then ⌊q⌋ else ⌊q⌋ + 1

theorem rne_int (n : Int) : rne n = n := by simp [rne]

theorem rne_floor (q : ℚ) : ⌊q⌋ ≤ rne q ∧ rne q ≤ ⌊q⌋ + 1 := by
  unfold rne; split
  · omega
  · split
    · omega
    · split <;> omega

theorem rne_mono : Monotone rne := by
  intro a b h
  have hf := Int.floor_le_floor h
  rcases lt_or_eq_of_le hf with hlt | heq
  · have := (rne_floor a).2; have := (rne_floor b).1; omega
  · unfold rne
    rw [← heq]
    split_ifs <;> first | omega | (exfalso; linarith)

/-- Exponent of the unit in the last place at `x`. -/
def ulpExp (p : Nat) (emin : Int) (x : ℚ) : Int := max emin (Int.log 2 |x| - (p - 1))

/-- Round to nearest even with `p`-bit significand. -/
def rneTo (p : Nat) (emin : Int) (x : ℚ) : ℚ :=
  rne (x / 2 ^ ulpExp p emin x) * 2 ^ ulpExp p emin x

theorem zpow2_pos (e : Int) : (0 : ℚ) < 2 ^ e := by positivity

theorem abs_lt_ulp (p : Nat) (emin : Int) (x : ℚ) :
    |x| < 2 ^ (ulpExp p emin x + p) := by
  have h1 := Int.lt_zpow_succ_log_self (b := 2) (by norm_num) |x|
  refine lt_of_lt_of_le h1 ?_
  push_cast
  apply zpow_le_zpow_right₀ (by norm_num)
  unfold ulpExp
  have := le_max_right emin (Int.log 2 |x| - ((p : Int) - 1))
  omega

theorem rneTo_exact {p : Nat} {emin : Int} (x : ℚ) (h : IsFloat p emin x) : rneTo p emin x = x := by
  obtain ⟨m, e, hm, he, rfl⟩ := h
  by_cases hm0 : m = 0
  · subst hm0; simp only [rneTo, Int.cast_zero, zero_mul, zero_div]
    rw [show (0 : ℚ) = ((0 : Int) : ℚ) by simp, rne_int]; simp
  · have hle : ulpExp p emin (m * 2 ^ e) ≤ e := by
      unfold ulpExp
      apply max_le he
      have h0 : (0 : ℚ) < |(m : ℚ) * 2 ^ e| := by
        rw [abs_pos]; exact mul_ne_zero (by exact_mod_cast hm0) (by positivity)
      have : Int.log 2 |(m : ℚ) * 2 ^ e| < p + e := by
        rw [← Int.lt_zpow_iff_log_lt (by norm_num) h0]
        push_cast
        rw [zpow_add₀ (by norm_num), zpow_natCast, abs_mul, abs_of_pos (zpow2_pos e)]
        apply mul_lt_mul_of_pos_right _ (zpow2_pos e)
        exact_mod_cast hm
      omega
    set u := ulpExp p emin (m * 2 ^ e) with hu
    have hdiv : (m : ℚ) * 2 ^ e / 2 ^ u = ((m * 2 ^ (e - u).toNat : Int) : ℚ) := by
      rw [mul_div_assoc, ← zpow_sub₀ (by norm_num)]
      push_cast
      rw [← zpow_natCast, Int.toNat_of_nonneg (by omega)]
    unfold rneTo
    rw [← hu, hdiv, rne_int, ← hdiv, div_mul_cancel₀ _ (ne_of_gt (zpow2_pos u))]

theorem rneTo_zero (p : Nat) (emin : Int) : rneTo p emin 0 = 0 := by
  simp only [rneTo, zero_div]
  rw [show (0 : ℚ) = ((0 : Int) : ℚ) by simp, rne_int]; simp

theorem rneTo_nonneg {p : Nat} {emin : Int} {x : ℚ} (h : 0 ≤ x) : 0 ≤ rneTo p emin x := by
  unfold rneTo
  apply mul_nonneg _ (le_of_lt (zpow2_pos _))
  have : rne ((0 : Int) : ℚ) ≤ rne (x / 2 ^ ulpExp p emin x) :=
    rne_mono (by simpa using div_nonneg h (le_of_lt (zpow2_pos _)))
  rw [rne_int] at this; exact_mod_cast this

theorem rneTo_nonpos {p : Nat} {emin : Int} {x : ℚ} (h : x ≤ 0) : rneTo p emin x ≤ 0 := by
  unfold rneTo
  apply mul_nonpos_of_nonpos_of_nonneg _ (le_of_lt (zpow2_pos _))
  have : rne (x / 2 ^ ulpExp p emin x) ≤ rne ((0 : Int) : ℚ) :=
    rne_mono (by simpa using div_nonpos_of_nonpos_of_nonneg h (le_of_lt (zpow2_pos _)))
  rw [rne_int] at this; exact_mod_cast this

theorem ulpExp_le {p : Nat} {emin : Int} {x y : ℚ} (h0 : x ≠ 0) (h : |x| ≤ |y|) :
    ulpExp p emin x ≤ ulpExp p emin y := by
  unfold ulpExp
  apply max_le_max_left
  have := Int.log_mono_right (b := 2) (abs_pos.2 h0) h
  omega

/-- Between two numbers of different exponent there is a power of two that both stay on their side of. -/
theorem rneTo_sep {p : Nat} (hp : 0 < p) {emin : Int} {x y : ℚ} (hy : y ≠ 0)
    (hlt : ulpExp p emin x < ulpExp p emin y) :
    |rneTo p emin x| ≤ 2 ^ (ulpExp p emin x + p) ∧ (2 : ℚ) ^ (ulpExp p emin x + p) ≤ |rneTo p emin y| := by
  set a := ulpExp p emin x with ha
  set b := ulpExp p emin y with hb
  have hbig : (2 : ℚ) ^ (b + p - 1) ≤ |y| := by
    have hb' : b = Int.log 2 |y| - (p - 1) := by
      rw [hb]; unfold ulpExp
      apply max_eq_right
      by_contra hc
      have h1 : b = emin := by rw [hb]; unfold ulpExp; exact max_eq_left (by omega)
      have h2 : emin ≤ a := by rw [ha]; unfold ulpExp; exact le_max_left _ _
      omega
    have hy0 : 0 < |y| := abs_pos.2 hy
    have := Int.zpow_log_le_self (b := 2) (by norm_num) hy0
    rw [show b + p - 1 = Int.log 2 |y| by omega]; exact_mod_cast this
  constructor
  · have hx := abs_lt_ulp p emin x
    rw [← ha] at hx
    have hq : |x / 2 ^ a| ≤ ((2 ^ p : Int) : ℚ) := by
      rw [abs_div, abs_of_pos (zpow2_pos a), div_le_iff₀ (zpow2_pos a)]
      push_cast
      rw [← zpow_natCast, ← zpow_add₀ (by norm_num), add_comm]; exact le_of_lt hx
    obtain ⟨q1, q2⟩ := abs_le.1 hq
    have r1 := rne_mono q2
    have r2 : rne ((-(2 ^ p) : Int) : ℚ) ≤ rne (x / 2 ^ a) := rne_mono (by push_cast at q1 ⊢; exact q1)
    rw [rne_int] at r1 r2
    unfold rneTo
    rw [← ha, abs_mul, abs_of_pos (zpow2_pos a), zpow_add₀ (by norm_num), mul_comm]
    apply mul_le_mul_of_nonneg_left _ (le_of_lt (zpow2_pos a))
    rw [zpow_natCast]
    have : |rne (x / 2 ^ a)| ≤ 2 ^ p := abs_le.2 ⟨r2, r1⟩
    exact_mod_cast this
  · have hge : (2 : ℚ) ^ (a + p) ≤ 2 ^ (b + p - 1) := zpow_le_zpow_right₀ (by norm_num) (by omega)
    refine le_trans hge ?_
    unfold rneTo
    rw [← hb, abs_mul, abs_of_pos (zpow2_pos b)]
    have hk : (2 : ℚ) ^ (b + p - 1) = ((2 ^ (p - 1) : Int) : ℚ) * 2 ^ b := by
      push_cast
      rw [← zpow_natCast, ← zpow_add₀ (by norm_num)]; congr 1; omega
    rw [hk]
    apply mul_le_mul_of_nonneg_right _ (le_of_lt (zpow2_pos b))
    have hq : ((2 ^ (p - 1) : Int) : ℚ) ≤ |y / 2 ^ b| := by
      rw [abs_div, abs_of_pos (zpow2_pos b), le_div_iff₀ (zpow2_pos b), ← hk]; exact hbig
    have : (2 ^ (p - 1) : Int) ≤ |rne (y / 2 ^ b)| := by
      rcases le_total 0 (y / 2 ^ b) with h | h
      · rw [abs_of_nonneg h] at hq
        have := rne_mono hq
        rw [rne_int] at this
        exact le_trans this (le_abs_self _)
      · rw [abs_of_nonpos h] at hq
        have h' : y / 2 ^ b ≤ ((-(2 ^ (p - 1)) : Int) : ℚ) := by push_cast at hq ⊢; linarith
        have := rne_mono h'
        rw [rne_int] at this
        have := neg_le_abs (rne (y / 2 ^ b))
        omega
    exact_mod_cast this

theorem rneTo_mono {p : Nat} (hp : 0 < p) (emin : Int) : Monotone (rneTo p emin) := by
  intro x y h
  rcases eq_or_ne x 0 with rfl | hx0
  · rw [rneTo_zero]; exact rneTo_nonneg h
  rcases eq_or_ne y 0 with rfl | hy0
  · rw [rneTo_zero]; exact rneTo_nonpos h
  rcases lt_or_gt_of_ne hx0 with hx | hx
  · rcases lt_or_gt_of_ne hy0 with hy | hy
    · have habs : |y| ≤ |x| := by rw [abs_of_neg hx, abs_of_neg hy]; linarith
      rcases lt_or_eq_of_le (ulpExp_le (p := p) (emin := emin) hy0 habs) with hl | he
      · obtain ⟨h1, h2⟩ := rneTo_sep hp hx0 hl
        have n1 : rneTo p emin x ≤ 0 := rneTo_nonpos (le_of_lt hx)
        have n2 : rneTo p emin y ≤ 0 := rneTo_nonpos (le_of_lt hy)
        rw [abs_of_nonpos n2] at h1; rw [abs_of_nonpos n1] at h2; linarith
      · unfold rneTo; rw [he]
        apply mul_le_mul_of_nonneg_right _ (le_of_lt (zpow2_pos _))
        have := rne_mono (div_le_div_of_nonneg_right h (le_of_lt (zpow2_pos (ulpExp p emin x))))
        exact_mod_cast this
    · exact le_trans (rneTo_nonpos (le_of_lt hx)) (rneTo_nonneg (le_of_lt hy))
  · have hy : 0 < y := lt_of_lt_of_le hx h
    have habs : |x| ≤ |y| := by rw [abs_of_pos hx, abs_of_pos hy]; exact h
    rcases lt_or_eq_of_le (ulpExp_le (p := p) (emin := emin) hx0 habs) with hl | he
    · obtain ⟨h1, h2⟩ := rneTo_sep hp hy0 hl
      have n1 : 0 ≤ rneTo p emin x := rneTo_nonneg (le_of_lt hx)
      have n2 : 0 ≤ rneTo p emin y := rneTo_nonneg (le_of_lt hy)
      rw [abs_of_nonneg n1] at h1; rw [abs_of_nonneg n2] at h2; linarith
    · unfold rneTo; rw [← he]
      apply mul_le_mul_of_nonneg_right _ (le_of_lt (zpow2_pos _))
      have := rne_mono (div_le_div_of_nonneg_right h (le_of_lt (zpow2_pos (ulpExp p emin x))))
      exact_mod_cast this

/-- The IEEE-754 default rounding as an admissible rounding. -/
def Rounding.nearestEven (p : Nat) (hp : 0 < p) (emin : Int) : Rounding p emin where
  rnd := rneTo p emin
  mono := rneTo_mono hp emin
  exact := rneTo_exact

/-- IEEE-754 binary64 and binary32 with round-to-nearest-even. -/
def Fp.ieee : Fp := ⟨Rounding.nearestEven 53 (by norm_num) _, Rounding.nearestEven 24 (by norm_num) _⟩

end TVP
