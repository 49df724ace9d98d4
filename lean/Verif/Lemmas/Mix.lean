import Verif.Lemmas.Drift

/-!
# Weighted means of two samples
-/

namespace TVP

theorem le_trunc_of_nonpos {x : ℚ} {n : Int} (hn : n ≤ 0) (h : (n : ℚ) - 1 < x) : n ≤ trunc x := by
  rcases le_or_gt 0 x with h0 | h0
  · rw [trunc_of_nonneg h0]; have := Int.floor_nonneg.2 h0; omega
  · rw [trunc_of_nonpos (le_of_lt h0)]
    have h1 := Int.le_ceil x
    have : ((n - 1 : Int) : ℚ) < ⌈x⌉ := by push_cast; linarith
    have : n - 1 < ⌈x⌉ := by exact_mod_cast this
    omega

theorem trunc_le_of_nonneg {x : ℚ} {n : Int} (hn : 0 ≤ n) (h : x < n + 1) : trunc x ≤ n := by
  rcases le_or_gt 0 x with h0 | h0
  · rw [trunc_of_nonneg h0]
    have h1 := Int.floor_le x
    have : ((⌊x⌋ : Int) : ℚ) < ((n + 1 : Int) : ℚ) := by push_cast; linarith
    have : ⌊x⌋ < n + 1 := by exact_mod_cast this
    omega
  · rw [trunc_of_nonpos (le_of_lt h0)]
    have : ⌈x⌉ ≤ 0 := by rw [Int.ceil_le]; push_cast; linarith
    omega

/-- Truncating a number within `e < 1` of `[lo, hi]`. -/
theorem trunc_range {x : ℚ} {lo hi : Int} (h1 : (lo : ℚ) - 1 < x) (h2 : x < hi + 1) :
    lo - 1 ≤ trunc x ∧ trunc x ≤ hi + 1 ∧ (lo ≤ 0 → lo ≤ trunc x) ∧ (0 ≤ hi → trunc x ≤ hi) := by
  refine ⟨?_, ?_, fun h => le_trunc_of_nonpos h h1, fun h => trunc_le_of_nonneg h h2⟩
  · have := (trunc_between (a := lo - 1) (b := ⌈x⌉ + lo.natAbs + 1) (q := x) (by push_cast; linarith)
      (by
        have := Int.le_ceil x
        have h0 : (0 : ℚ) ≤ ((lo.natAbs : Int) : ℚ) := by exact_mod_cast Int.natCast_nonneg _
        push_cast at h0 ⊢; linarith)).1
    exact this
  · have := (trunc_between (a := ⌊x⌋ - hi.natAbs - 1) (b := hi + 1) (q := x)
      (by
        have := Int.floor_le x
        have h0 : (0 : ℚ) ≤ ((hi.natAbs : Int) : ℚ) := by exact_mod_cast Int.natCast_nonneg _
        push_cast at h0 ⊢; linarith) (by push_cast; linarith)).2
    exact this

/-- The double expression `w * a + (1 - w) * b` is within `2^-30` of the exact mean. -/
theorem mix_err (R : Fp64) {w : ℚ} (h0 : 0 ≤ w) (h1 : w ≤ 1) {a b : Int} (ha : InI16 a) (hb : InI16 b) :
    |R.rnd (R.rnd (w * a) + R.rnd (R.rnd (1 - w) * b)) - (w * a + (1 - w) * b)| ≤ 2 ^ (-30 : ℤ) := by
  unfold InI16 at ha hb
  have fa : |(a : ℚ)| ≤ 32768 := by
    rw [abs_le]; exact ⟨by exact_mod_cast ha.1, by exact_mod_cast (show a ≤ 32768 by omega)⟩
  have fb : |(b : ℚ)| ≤ 32768 := by
    rw [abs_le]; exact ⟨by exact_mod_cast hb.1, by exact_mod_cast (show b ≤ 32768 by omega)⟩
  have e1 := R.err_le (x := 1 - w) (by norm_num) (k := 0) (by norm_num) (by rw [abs_le]; constructor <;> norm_num <;> linarith)
  have b1 := R.abs_le_zpow (x := 1 - w) (by norm_num) (k := 0) (by norm_num) (by rw [abs_le]; constructor <;> norm_num <;> linarith)
  have m1 : |w * a| ≤ 2 ^ (15 : ℤ) := by
    rw [abs_mul, abs_of_nonneg h0]
    have := mul_le_mul h1 fa (abs_nonneg _) (by norm_num : (0 : ℚ) ≤ 1)
    norm_num at this ⊢; exact this
  have m2 : |R.rnd (1 - w) * b| ≤ 2 ^ (15 : ℤ) := by
    rw [abs_mul]
    norm_num at b1
    have := mul_le_mul b1 fb (abs_nonneg _) (by norm_num : (0 : ℚ) ≤ 1)
    norm_num at this ⊢; exact this
  have e2 := R.err_le (by norm_num) (k := 15) (by norm_num) m1
  have e3 := R.err_le (by norm_num) (k := 15) (by norm_num) m2
  have b2 := R.abs_le_zpow (by norm_num) (k := 15) (by norm_num) m1
  have b3 := R.abs_le_zpow (by norm_num) (k := 15) (by norm_num) m2
  have e4 := R.err_le (x := R.rnd (w * a) + R.rnd (R.rnd (1 - w) * b)) (by norm_num) (k := 16) (by norm_num)
    (by
      have := abs_add_le (R.rnd (w * a)) (R.rnd (R.rnd (1 - w) * b))
      norm_num at b2 b3 ⊢; linarith)
  have e5 : |(R.rnd (1 - w) - (1 - w)) * b| ≤ 2 ^ (-38 : ℤ) := by
    rw [abs_mul]
    have := mul_le_mul e1 fb (abs_nonneg _) (by positivity)
    norm_num at this ⊢; linarith
  rw [abs_le] at e2 e3 e4 e5 ⊢
  norm_num at e2 e3 e4 e5 ⊢
  constructor <;> nlinarith

/-- Every mixed sample is defined, between the two samples up to one, and never larger in magnitude. -/
theorem mix_ok (R : Fp64) {w : ℚ} (h0 : 0 ≤ w) (h1 : w ≤ 1) {a b : Int} (ha : InI16 a) (hb : InI16 b) :
    ∃ m, castI16 (R.rnd (R.rnd (w * a) + R.rnd (R.rnd (1 - w) * b))) = .ok m ∧ InI16 m ∧
      min a b - 1 ≤ m ∧ m ≤ max a b + 1 ∧ |m| ≤ max |a| |b| ∧
      |(m : ℚ) - (w * a + (1 - w) * b)| < 1 + 2 ^ (-30 : ℤ) := by
  have he := mix_err R h0 h1 ha hb
  set x := R.rnd (R.rnd (w * a) + R.rnd (R.rnd (1 - w) * b)) with hx
  have hn := trunc_near x
  obtain ⟨e1, e2⟩ := abs_le.1 he
  norm_num at e1 e2
  have lo : ((min a b : Int) : ℚ) ≤ w * a + (1 - w) * b := by
    have p1 : ((min a b : Int) : ℚ) ≤ a := by exact_mod_cast min_le_left a b
    have p2 : ((min a b : Int) : ℚ) ≤ b := by exact_mod_cast min_le_right a b
    nlinarith
  have hi : w * a + (1 - w) * b ≤ ((max a b : Int) : ℚ) := by
    have p1 : (a : ℚ) ≤ ((max a b : Int) : ℚ) := by exact_mod_cast le_max_left a b
    have p2 : (b : ℚ) ≤ ((max a b : Int) : ℚ) := by exact_mod_cast le_max_right a b
    nlinarith
  obtain ⟨t1, t2, t3, t4⟩ := trunc_range (x := x) (lo := min a b) (hi := max a b) (by linarith) (by linarith)
  have hb1 : |trunc x| ≤ max |a| |b| := by
    obtain ⟨s1, s2, s3, s4⟩ := trunc_range (x := x) (lo := -max |a| |b|) (hi := max |a| |b|)
      (by
        have q : -max |a| |b| ≤ min a b := by
          have := neg_abs_le a; have := neg_abs_le b
          rcases le_total a b with h | h <;> rcases le_total |a| |b| with h' | h' <;> simp only [*, min_eq_left, min_eq_right, max_eq_left, max_eq_right] <;> omega
        have : ((-max |a| |b| : Int) : ℚ) ≤ ((min a b : Int) : ℚ) := by exact_mod_cast q
        linarith)
      (by
        have q : max a b ≤ max |a| |b| := max_le_max (le_abs_self a) (le_abs_self b)
        have : ((max a b : Int) : ℚ) ≤ ((max |a| |b| : Int) : ℚ) := by exact_mod_cast q
        linarith)
    have hpos : 0 ≤ max |a| |b| := le_max_of_le_left (abs_nonneg a)
    exact abs_le.2 ⟨s3 (by omega), s4 hpos⟩
  have hin : InI16 (trunc x) := by
    obtain ⟨s1, s2, s3, s4⟩ := trunc_range (x := x) (lo := -32768) (hi := 32767)
      (by
        have q : (-32768 : Int) ≤ min a b := by unfold InI16 at ha hb; omega
        have : ((-32768 : Int) : ℚ) ≤ ((min a b : Int) : ℚ) := by exact_mod_cast q
        rw [Int.cast_neg, Int.cast_ofNat] at this ⊢; linarith)
      (by
        have q : max a b ≤ (32767 : Int) := by unfold InI16 at ha hb; omega
        have : ((max a b : Int) : ℚ) ≤ ((32767 : Int) : ℚ) := by exact_mod_cast q
        rw [Int.cast_ofNat] at this ⊢; linarith)
    exact ⟨s3 (by norm_num), s4 (by norm_num)⟩
  refine ⟨trunc x, ?_, hin, t1, t2, hb1, ?_⟩
  · unfold castI16; rw [if_pos hin]
  · rw [abs_le] at he
    rw [abs_lt] at hn ⊢
    constructor <;> linarith [he.1, he.2, hn.1, hn.2]

end TVP
