import Mathlib.Tactic.Ring
import Mathlib.Tactic.FieldSimp
import Mathlib.Algebra.Order.Field.Power
import Verif.Fp

/-!
# Facts about every admissible rounding function
-/

namespace TVP
namespace Rounding

variable {p : Nat} {emin : Int} (R : Rounding p emin)

/-- A multiple of `2^e` up to and including `2^(p+e)` in magnitude is representable. -/
theorem isFloat_of {p : Nat} {emin : Int} (hp : 0 < p) {m e : Int} (hm : |m| ≤ 2 ^ p) (he : emin ≤ e) :
    IsFloat p emin (m * (2 : ℚ) ^ e) := by
  rcases lt_or_eq_of_le hm with h | h
  · exact ⟨m, e, h, he, rfl⟩
  · refine ⟨m / 2 ^ p, e + p, ?_, by omega, ?_⟩
    · have : (1 : Int) < 2 ^ p := one_lt_pow₀ (by norm_num) (by omega)
      rcases abs_choice m with h' | h' <;> rw [h'] at h
      · rw [h, Int.ediv_self (by positivity)]; simpa using this
      · have : m = -(2 ^ p) := by omega
        rw [this, Int.neg_ediv_of_dvd (dvd_refl _), Int.ediv_self (by positivity)]; simpa using by assumption
    · have h2 : (2 : ℚ) ^ (e + p : Int) = 2 ^ e * 2 ^ p := by
        rw [zpow_add₀ (by norm_num), zpow_natCast]
      rcases abs_choice m with h' | h' <;> rw [h'] at h
      · rw [h2, h, Int.ediv_self (by positivity)]; push_cast; ring
      · have hm' : m = -(2 ^ p) := by omega
        rw [h2, hm', Int.neg_ediv_of_dvd (dvd_refl _), Int.ediv_self (by positivity)]; push_cast; ring

theorem exact_int (hp : 0 < p) (he : emin ≤ 0) {m : Int} (hm : |m| ≤ 2 ^ p) : R.rnd (m : ℚ) = m := by
  apply R.exact
  simpa using isFloat_of hp (e := 0) hm he

theorem exact_zero : R.rnd 0 = 0 := by
  apply R.exact
  refine ⟨0, max emin 0, ?_, le_max_left _ _, by simp⟩
  simp

theorem exact_zpow (hp : 0 < p) {k : Int} (hk : emin ≤ k) : R.rnd ((2 : ℚ) ^ k) = 2 ^ k := by
  apply R.exact
  simpa using isFloat_of hp (m := 1) (e := k) (by simpa using one_le_pow₀ (by norm_num)) hk

theorem exact_neg_zpow (hp : 0 < p) {k : Int} (hk : emin ≤ k) : R.rnd (-(2 : ℚ) ^ k) = -2 ^ k := by
  apply R.exact
  simpa using isFloat_of hp (m := -1) (e := k) (by simpa using one_le_pow₀ (by norm_num)) hk

theorem nonneg {x : ℚ} (h : 0 ≤ x) : 0 ≤ R.rnd x := by
  have := R.mono h; rwa [R.exact_zero] at this

theorem nonpos {x : ℚ} (h : x ≤ 0) : R.rnd x ≤ 0 := by
  have := R.mono h; rwa [R.exact_zero] at this

/-- Rounding never crosses a power of two. -/
theorem abs_le_zpow (hp : 0 < p) {k : Int} (hk : emin ≤ k) {x : ℚ} (h : |x| ≤ 2 ^ k) :
    |R.rnd x| ≤ 2 ^ k := by
  obtain ⟨h1, h2⟩ := abs_le.1 h
  have h1' := R.mono h1
  have h2' := R.mono h2
  rw [R.exact_neg_zpow hp hk] at h1'
  rw [R.exact_zpow hp hk] at h2'
  exact abs_le.2 ⟨h1', h2'⟩

/-- The error of one operation whose exact result is at most `2^k`: at most one unit in the last place. -/
theorem err_le (hp : 0 < p) {k : Int} (hk : emin ≤ k - p) {x : ℚ} (h : |x| ≤ 2 ^ k) :
    |R.rnd x - x| ≤ 2 ^ (k - p) := by
  set u : ℚ := 2 ^ (k - p) with hu
  have hu0 : 0 < u := by positivity
  have hku : (2 : ℚ) ^ k = 2 ^ p * u := by
    rw [hu, ← zpow_natCast, ← zpow_add₀ (by norm_num)]; congr 1; ring
  obtain ⟨h1, h2⟩ := abs_le.1 h
  set n := ⌊x / u⌋ with hn
  have f1 : (n : ℚ) * u ≤ x := by
    rw [← le_div_iff₀ hu0]; exact Int.floor_le _
  have f2 : x < (n + 1 : ℚ) * u := by
    rw [← div_lt_iff₀ hu0]; exact Int.lt_floor_add_one _
  have b1 : -(2 ^ p : Int) ≤ n := by
    rw [hn, Int.le_floor]; push_cast; rw [le_div_iff₀ hu0]; linarith
  have b2 : n ≤ 2 ^ p := by
    have : (n : ℚ) ≤ 2 ^ p := by
      have : (n : ℚ) * u ≤ 2 ^ p * u := by linarith
      exact le_of_mul_le_mul_right this hu0
    exact_mod_cast this
  have e1 : R.rnd (n * u) = n * u := R.exact _ (isFloat_of hp (abs_le.2 ⟨b1, b2⟩) hk)
  have lo : (n : ℚ) * u ≤ R.rnd x := by rw [← e1]; exact R.mono f1
  by_cases hn2 : n = 2 ^ p
  · have hx : x = 2 ^ k := by
      apply le_antisymm h2; rw [hku]; rw [hn2] at f1; push_cast at f1; exact f1
    have : R.rnd x = x := by rw [hx]; exact R.exact_zpow hp (by omega)
    rw [this]; simp; positivity
  · have e2 : R.rnd (((n + 1 : Int) : ℚ) * u) = ((n + 1 : Int) : ℚ) * u :=
      R.exact _ (isFloat_of hp (abs_le.2 ⟨by omega, by omega⟩) hk)
    have hi : R.rnd x ≤ ((n + 1 : Int) : ℚ) * u := by
      rw [← e2]; apply R.mono; push_cast; exact le_of_lt f2
    push_cast at hi
    rw [abs_le]; constructor <;> nlinarith

end Rounding

/-! ## Truncation -/

theorem trunc_of_nonneg {q : ℚ} (h : 0 ≤ q) : trunc q = ⌊q⌋ := by simp [trunc, h]
theorem trunc_int (n : Int) : trunc (n : ℚ) = n := by
  unfold trunc
  split
  · simp
  · have : (-(n : ℚ)) = ((-n : Int) : ℚ) := by push_cast; rfl
    rw [this, Int.floor_intCast]; ring

theorem trunc_mono : Monotone trunc := by
  intro a b h
  unfold trunc
  split <;> split
  · exact Int.floor_le_floor h
  · exfalso; linarith
  · have h1 : 0 ≤ ⌊-a⌋ := Int.floor_nonneg.2 (by linarith)
    have h2 : 0 ≤ ⌊b⌋ := Int.floor_nonneg.2 (by assumption)
    omega
  · have := Int.floor_le_floor (neg_le_neg h); omega

theorem trunc_near (q : ℚ) : |(trunc q : ℚ) - q| < 1 := by
  unfold trunc
  split
  · have := Int.floor_le q; have := Int.lt_floor_add_one q; rw [abs_lt]; constructor <;> linarith
  · have := Int.floor_le (-q); have := Int.lt_floor_add_one (-q)
    push_cast; rw [abs_lt]; constructor <;> linarith

theorem trunc_between {a b : Int} {q : ℚ} (h1 : (a : ℚ) ≤ q) (h2 : q ≤ b) : a ≤ trunc q ∧ trunc q ≤ b := by
  have := trunc_mono h1; have := trunc_mono h2; simp only [trunc_int] at *; exact ⟨by assumption, by assumption⟩

theorem castI16_ok {q : ℚ} (h1 : (-32768 : ℚ) ≤ q) (h2 : q ≤ 32767) : castI16 q = .ok (trunc q) := by
  have : InI16 (trunc q) := trunc_between (a := -32768) (b := 32767) (by simpa using h1) (by simpa using h2)
  unfold castI16; rw [if_pos this]

theorem castI32_ok {q : ℚ} (h1 : (-2147483648 : ℚ) ≤ q) (h2 : q ≤ 2147483647) : castI32 q = .ok (trunc q) := by
  have : InI32 (trunc q) := trunc_between (a := -2147483648) (b := 2147483647) (by simpa using h1) (by simpa using h2)
  unfold castI32; rw [if_pos this]

end TVP
