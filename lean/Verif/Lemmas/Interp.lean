import Mathlib.Tactic.LinearCombination
import Verif.Lemmas.Fp
import Verif.Model.Interp
import Verif.Spec.Interp

/-!
# Error analysis of `fastinterpolate`
-/

namespace TVP

theorem err32 (f : Fp32) (k : Nat) {x : ℚ} (h : |x| ≤ 2 ^ (k : Int)) :
    |f.rnd x - x| ≤ 2 ^ ((k : Int) - 24) :=
  f.err_le (by norm_num) (by omega) h

theorem rnd32_between (f : Fp32) {a b : Int} {x : ℚ} (ha : f.rnd a = a) (hb : f.rnd b = b)
    (h1 : (a : ℚ) ≤ x) (h2 : x ≤ b) : (a : ℚ) ≤ f.rnd x ∧ f.rnd x ≤ b := by
  have := f.mono h1; have := f.mono h2; rw [ha] at *; rw [hb] at *; exact ⟨by assumption, by assumption⟩

theorem fl32 (f : Fp32) (m : Int) (k : Nat) (hm : |m| ≤ 16777216) : f.rnd ((m * 2 ^ k : Int) : ℚ) = ((m * 2 ^ k : Int) : ℚ) := by
  apply f.exact
  have := Rounding.isFloat_of (p := 24) (emin := -149) (by norm_num) (m := m) (e := k) (by simpa using hm) (by omega)
  push_cast
  rw [zpow_natCast] at this
  exact this

/-- `x_1`, `x_2`, `x_3` of `fastinterpolate`. -/
theorem powers (f : Fp32) {x1 : ℚ} (h1 : 1000 ≤ x1) (h2 : x1 ≤ 2000) :
    |f.rnd (x1 * x1) - x1 * x1| ≤ 1 / 4 ∧ 1000000 ≤ f.rnd (x1 * x1) ∧ f.rnd (x1 * x1) ≤ 4000000 ∧
    |f.rnd (f.rnd (x1 * x1) * x1) - f.rnd (x1 * x1) * x1| ≤ 512 ∧
    0 ≤ f.rnd (f.rnd (x1 * x1) * x1) ∧ f.rnd (f.rnd (x1 * x1) * x1) ≤ 8000000000 := by
  have a1 := err32 f 22 (x := x1 * x1) (by rw [abs_of_nonneg (by positivity)]; norm_num; nlinarith)
  have a2 := rnd32_between f (a := 1000000) (b := 4000000) (x := x1 * x1)
    (by simpa using fl32 f 1000000 0 (by norm_num)) (by simpa using fl32 f 4000000 0 (by norm_num))
    (by push_cast; nlinarith) (by push_cast; nlinarith)
  set x2 := f.rnd (x1 * x1)
  push_cast at a2
  have a3 := err32 f 33 (x := x2 * x1)
    (by rw [abs_of_nonneg (by nlinarith)]; norm_num; nlinarith)
  have a4 := rnd32_between f (a := 0) (b := 8000000000) (x := x2 * x1)
    (by simpa using fl32 f 0 0 (by norm_num)) (by simpa using fl32 f 1953125 12 (by norm_num))
    (by push_cast; nlinarith) (by push_cast; nlinarith)
  push_cast at a4
  refine ⟨by norm_num at a1 ⊢; exact a1, a2.1, a2.2, by norm_num at a3 ⊢; exact a3, a4.1, a4.2⟩

/-- Error of one coefficient group. -/
theorem group_err (f : Fp32) {x1 a b : ℚ} (h1 : 1000 ≤ x1) (h2 : x1 ≤ 2000)
    (ha : 0 ≤ a) (ha' : a ≤ 6000) (hb : 0 ≤ b) (hb' : b ≤ 11000000)
    (hp : |x1 ^ 3 - a * x1 ^ 2 + b * x1| ≤ 7000000000) :
    |fiPoly f x1 (f.rnd (x1 * x1)) (f.rnd (f.rnd (x1 * x1) * x1)) a b - (x1 ^ 3 - a * x1 ^ 2 + b * x1)|
      ≤ 9168 := by
  obtain ⟨e2, l2, u2, e3, l3, u3⟩ := powers f h1 h2
  set x2 := f.rnd (x1 * x1)
  set x3 := f.rnd (x2 * x1)
  unfold fiPoly
  have hax : 0 ≤ a * x2 := by positivity
  have hax' : a * x2 ≤ 24000000000 := by nlinarith
  have r1 := err32 f 35 (x := a * x2) (by rw [abs_of_nonneg hax]; norm_num; linarith)
  have hbx : 0 ≤ b * x1 := by positivity
  have hbx' : b * x1 ≤ 22000000000 := by nlinarith
  have r2 := err32 f 35 (x := b * x1) (by rw [abs_of_nonneg hbx]; norm_num; linarith)
  norm_num at r1 r2
  obtain ⟨r1a, r1b⟩ := abs_le.1 r1
  obtain ⟨r2a, r2b⟩ := abs_le.1 r2
  have r3 := err32 f 35 (x := x3 - f.rnd (a * x2)) (by rw [abs_le]; norm_num; constructor <;> linarith)
  norm_num at r3
  obtain ⟨r3a, r3b⟩ := abs_le.1 r3
  obtain ⟨e2a, e2b⟩ := abs_le.1 e2
  obtain ⟨e3a, e3b⟩ := abs_le.1 e3
  obtain ⟨pa, pb⟩ := abs_le.1 hp
  -- propagation of the errors of x2 and x3
  have k1 : -500 ≤ (x2 - x1 * x1) * x1 := by nlinarith
  have k2 : (x2 - x1 * x1) * x1 ≤ 500 := by nlinarith
  have k3 : -1500 ≤ a * (x2 - x1 * x1) := by nlinarith
  have k4 : a * (x2 - x1 * x1) ≤ 1500 := by nlinarith
  have id1 : x1 ^ 3 - a * x1 ^ 2 + b * x1 =
      (x2 * x1 - (x2 - x1 * x1) * x1) - (a * x2 - a * (x2 - x1 * x1)) + b * x1 := by ring
  have r4 := err32 f 33 (x := f.rnd (x3 - f.rnd (a * x2)) + f.rnd (b * x1))
    (by rw [abs_le]; norm_num; constructor <;> linarith)
  norm_num at r4
  obtain ⟨r4a, r4b⟩ := abs_le.1 r4
  rw [abs_le]
  constructor <;> linarith

/-- Error of one summand. -/
theorem term_err (f : Fp32) {d : Int} {p P c E : ℚ} (k1 k2 : Nat) (hd : InI16 d) (hc : c ≠ 0)
    (hE : |p - P| ≤ E) (hdp : |(d : ℚ) * p| ≤ 2 ^ (k1 : Int)) (hq : (2 : ℚ) ^ (k1 : Int) ≤ 2 ^ (k2 : Int) * |c|) :
    |fiTerm f d p c - d * P / c| ≤ 32768 * E / |c| + 2 ^ ((k1 : Int) - 24) / |c| + 2 ^ ((k2 : Int) - 24) ∧
    |fiTerm f d p c| ≤ 2 ^ (k2 : Int) := by
  unfold fiTerm
  have hcp : 0 < |c| := abs_pos.2 hc
  have a1 := err32 f k1 hdp
  have a2 : |f.rnd (d * p)| ≤ 2 ^ (k1 : Int) := f.abs_le_zpow (by norm_num) (by omega) hdp
  have a3 : |f.rnd (d * p) / c| ≤ 2 ^ (k2 : Int) := by
    rw [abs_div, div_le_iff₀ hcp]; linarith
  have a4 := err32 f k2 a3
  refine ⟨?_, f.abs_le_zpow (by norm_num) (by omega) a3⟩
  have hd' : |(d : ℚ)| ≤ 32768 := by
    rw [abs_le]; obtain ⟨h1, h2⟩ := hd
    constructor
    · exact_mod_cast h1
    · have : (d : ℚ) ≤ 32767 := by exact_mod_cast h2
      linarith
  have b1 : |(d : ℚ) * p / c - d * P / c| ≤ 32768 * E / |c| := by
    rw [← sub_div, ← mul_sub, abs_div, abs_mul]
    apply div_le_div_of_nonneg_right _ (le_of_lt hcp)
    exact mul_le_mul hd' hE (abs_nonneg _) (by norm_num)
  have b2 : |f.rnd (d * p) / c - d * p / c| ≤ 2 ^ ((k1 : Int) - 24) / |c| := by
    rw [← sub_div, abs_div]
    exact div_le_div_of_nonneg_right a1 (le_of_lt hcp)
  have t1 := abs_sub_le (f.rnd (f.rnd (d * p) / c)) (f.rnd (d * p) / c) (d * P / c)
  have t2 := abs_sub_le (f.rnd (d * p) / c) (d * p / c) (d * P / c)
  linarith

theorem dmul_le {d : Int} (hd : InI16 d) {p B : ℚ} (h : |p| ≤ B) : |(d : ℚ) * p| ≤ 32768 * B := by
  have hd' : |(d : ℚ)| ≤ 32768 := by
    rw [abs_le]; obtain ⟨h1, h2⟩ := hd
    constructor
    · exact_mod_cast h1
    · have : (d : ℚ) ≤ 32767 := by exact_mod_cast h2
      linarith
  rw [abs_mul]
  exact mul_le_mul hd' h (abs_nonneg _) (by norm_num)

/-- The scaled position `x_1 = x * 1000.0` converted to `float`. -/
theorem x1_err (fp : Fp) {x : ℚ} (h1 : 1 ≤ x) (h2 : x ≤ 2) :
    1000 ≤ fp.f.rnd (fp.d.rnd (x * 1000)) ∧ fp.f.rnd (fp.d.rnd (x * 1000)) ≤ 2000 ∧
    |fp.f.rnd (fp.d.rnd (x * 1000)) - 1000 * x| ≤ 1 / 4096 := by
  have d1 : fp.d.rnd ((1000 : Int) : ℚ) = ((1000 : Int) : ℚ) :=
    fp.d.exact_int (by norm_num) (by norm_num) (by norm_num)
  have d2 : fp.d.rnd ((2000 : Int) : ℚ) = ((2000 : Int) : ℚ) :=
    fp.d.exact_int (by norm_num) (by norm_num) (by norm_num)
  have m1 := fp.d.mono (show ((1000 : Int) : ℚ) ≤ x * 1000 by push_cast; linarith)
  have m2 := fp.d.mono (show x * 1000 ≤ ((2000 : Int) : ℚ) by push_cast; linarith)
  rw [d1] at m1; rw [d2] at m2
  have m3 := rnd32_between fp.f (a := 1000) (b := 2000) (x := fp.d.rnd (x * 1000))
    (by simpa using fl32 fp.f 1000 0 (by norm_num)) (by simpa using fl32 fp.f 2000 0 (by norm_num)) m1 m2
  have e1 : |fp.d.rnd (x * 1000) - x * 1000| ≤ 2 ^ ((11 : Int) - (53 : Nat)) :=
    fp.d.err_le (by norm_num) (by norm_num) (k := 11)
      (by rw [abs_of_nonneg (by linarith)]; norm_num; linarith)
  push_cast at m1 m2 m3
  have e2 := err32 fp.f 11 (x := fp.d.rnd (x * 1000))
    (by rw [abs_of_nonneg (by linarith)]; norm_num; linarith)
  norm_num at e1 e2
  refine ⟨m3.1, m3.2, ?_⟩
  obtain ⟨_, _⟩ := abs_le.1 e1
  obtain ⟨_, _⟩ := abs_le.1 e2
  rw [abs_le]; constructor <;> linarith

/-- Bounds of the four node polynomials between the inner nodes. -/
theorem unit_bounds {u : ℚ} (hu1 : 1 ≤ u) (hu2 : u ≤ 2) :
    (0 ≤ (u - 1) * (2 - u) * (3 - u) ∧ (u - 1) * (2 - u) * (3 - u) ≤ 1 / 2) ∧
    (0 ≤ u * (2 - u) * (3 - u) ∧ u * (2 - u) * (3 - u) ≤ 2) ∧
    (0 ≤ u * (u - 1) * (3 - u) ∧ u * (u - 1) * (3 - u) ≤ 17 / 8) ∧
    (0 ≤ u * ((u - 1) * (2 - u)) ∧ u * ((u - 1) * (2 - u)) ≤ 1 / 2) := by
  have q1 : 0 ≤ (u - 1) * (2 - u) := mul_nonneg (by linarith) (by linarith)
  have q1' : (u - 1) * (2 - u) ≤ 1 / 4 := by nlinarith [sq_nonneg (2 * u - 3)]
  refine ⟨⟨mul_nonneg q1 (by linarith), ?_⟩, ⟨mul_nonneg (mul_nonneg (by linarith) (by linarith)) (by linarith), ?_⟩,
    ⟨mul_nonneg (mul_nonneg (by linarith) (by linarith)) (by linarith), ?_⟩, ⟨mul_nonneg (by linarith) q1, ?_⟩⟩
  · nlinarith
  · have : u * (2 - u) ≤ 1 := by nlinarith [sq_nonneg (u - 1)]
    nlinarith
  · nlinarith [sq_nonneg (u - 2), mul_nonneg q1 (show (0:ℚ) ≤ u by linarith)]
  · nlinarith

/-- The four coefficient groups. -/
theorem groups (f : Fp32) {u : ℚ} (hu1 : 1 ≤ u) (hu2 : u ≤ 2) (x1 x2 x3 : ℚ) (h1 : x1 = 1000 * u)
    (h2 : x2 = f.rnd (x1 * x1)) (h3 : x3 = f.rnd (x2 * x1)) :
    |f.rnd (fiPoly f x1 x2 x3 6000 11000000 - 6000000000)
      - 1000000000 * ((u - 1) * (2 - u) * (3 - u))| ≤ 9232 ∧
    |fiPoly f x1 x2 x3 5000 6000000 - 1000000000 * (u * (2 - u) * (3 - u))| ≤ 9168 ∧
    |fiPoly f x1 x2 x3 4000 3000000 - -(1000000000 * (u * (u - 1) * (3 - u)))| ≤ 9168 ∧
    |fiPoly f x1 x2 x3 3000 2000000 - -(1000000000 * (u * ((u - 1) * (2 - u))))| ≤ 9168 := by
  obtain ⟨⟨b1, b1'⟩, ⟨b2, b2'⟩, ⟨b3, b3'⟩, b4, b4'⟩ := unit_bounds hu1 hu2
  have l1 : 1000 ≤ x1 := by linarith
  have u1 : x1 ≤ 2000 := by linarith
  have v1 : x1 ^ 3 - 6000 * x1 ^ 2 + 11000000 * x1 = 1000000000 * (6 + (u - 1) * (2 - u) * (3 - u)) := by
    rw [h1]; ring
  have v2 : x1 ^ 3 - 5000 * x1 ^ 2 + 6000000 * x1 = 1000000000 * (u * (2 - u) * (3 - u)) := by rw [h1]; ring
  have v3 : x1 ^ 3 - 4000 * x1 ^ 2 + 3000000 * x1 = -(1000000000 * (u * (u - 1) * (3 - u))) := by rw [h1]; ring
  have v4 : x1 ^ 3 - 3000 * x1 ^ 2 + 2000000 * x1 = -(1000000000 * (u * ((u - 1) * (2 - u)))) := by rw [h1]; ring
  have g1 := group_err f (a := 6000) (b := 11000000) l1 u1 (by norm_num) (by norm_num) (by norm_num) (by norm_num)
    (by rw [v1, abs_le]; constructor <;> linarith)
  have g2 := group_err f (a := 5000) (b := 6000000) l1 u1 (by norm_num) (by norm_num) (by norm_num) (by norm_num)
    (by rw [v2, abs_le]; constructor <;> linarith)
  have g3 := group_err f (a := 4000) (b := 3000000) l1 u1 (by norm_num) (by norm_num) (by norm_num) (by norm_num)
    (by rw [v3, abs_le]; constructor <;> linarith)
  have g4 := group_err f (a := 3000) (b := 2000000) l1 u1 (by norm_num) (by norm_num) (by norm_num) (by norm_num)
    (by rw [v4, abs_le]; constructor <;> linarith)
  rw [← h2, ← h3] at g1 g2 g3 g4
  rw [v1] at g1; rw [v2] at g2; rw [v3] at g3; rw [v4] at g4
  refine ⟨?_, g2, g3, g4⟩
  clear g2 g3 g4 v1 v2 v3 v4 h1 h2 h3 b2 b2' b3 b3' b4 b4'
  obtain ⟨g1a, g1b⟩ := abs_le.1 g1
  have g0 := err32 f 30 (x := fiPoly f x1 x2 x3 6000 11000000 - 6000000000)
    (by rw [abs_le]; norm_num; constructor <;> linarith)
  norm_num at g0
  obtain ⟨g0a, g0b⟩ := abs_le.1 g0
  rw [abs_le]; constructor <;> linarith

/-- Adding up the four summands. -/
theorem sum_err (f : Fp32) {t1 t2 t3 t4 s1 s2 s3 s4 : ℚ}
    (h1 : |t1 - s1| ≤ 53 / 1000) (h2 : |t2 - s2| ≤ 157 / 1000) (h3 : |t3 - s3| ≤ 157 / 1000)
    (h4 : |t4 - s4| ≤ 53 / 1000) (b1 : |t1| ≤ 32768) (b2 : |t2| ≤ 65536) (b3 : |t3| ≤ 65536)
    (b4 : |t4| ≤ 32768) :
    |f.rnd (f.rnd (f.rnd (t1 + t2) + t3) + t4) - (s1 + s2 + s3 + s4)| ≤ 460 / 1000 ∧
    |f.rnd (f.rnd (f.rnd (t1 + t2) + t3) + t4)| ≤ 262144 := by
  obtain ⟨_, _⟩ := abs_le.1 h1
  obtain ⟨_, _⟩ := abs_le.1 h2
  obtain ⟨_, _⟩ := abs_le.1 h3
  obtain ⟨_, _⟩ := abs_le.1 h4
  obtain ⟨_, _⟩ := abs_le.1 b1
  obtain ⟨_, _⟩ := abs_le.1 b2
  obtain ⟨_, _⟩ := abs_le.1 b3
  obtain ⟨_, _⟩ := abs_le.1 b4
  clear h1 h2 h3 h4 b1 b2 b3 b4
  have s1 := err32 f 17 (x := t1 + t2) (by rw [abs_le]; norm_num; constructor <;> linarith)
  norm_num at s1
  obtain ⟨s1a, s1b⟩ := abs_le.1 s1
  have s2 := err32 f 18 (x := f.rnd (t1 + t2) + t3) (by rw [abs_le]; norm_num; constructor <;> linarith)
  norm_num at s2
  obtain ⟨s2a, s2b⟩ := abs_le.1 s2
  have hb : |f.rnd (f.rnd (t1 + t2) + t3) + t4| ≤ 2 ^ ((18 : Nat) : Int) := by
    rw [abs_le]; norm_num; constructor <;> linarith
  have s3 := err32 f 18 hb
  norm_num at s3
  obtain ⟨s3a, s3b⟩ := abs_le.1 s3
  refine ⟨?_, ?_⟩
  · rw [abs_le]; constructor <;> linarith
  · have := f.abs_le_zpow (by norm_num) (k := ((18 : Nat) : Int)) (by norm_num) hb
    norm_num at this; exact this

/-- Moving the cubic's argument a little moves its value a little. -/
theorem cubic_shift {d1 d2 d3 d4 : Int} {u x : ℚ} (hd1 : InI16 d1) (hd2 : InI16 d2)
    (hd3 : InI16 d3) (hd4 : InI16 d4) (hu1 : 1 ≤ u) (hu2 : u ≤ 2) (hx1 : 1 ≤ x) (hx2 : x ≤ 2)
    (hux : |u - x| ≤ 1 / 4096000) :
    |Spec.cubic d1 d2 d3 d4 u - Spec.cubic d1 d2 d3 d4 x| ≤ 4 / 125 := by
  have D : ∀ (d : Int), InI16 d → ∀ q : ℚ, |q| ≤ 3 → |(d : ℚ) * ((u - x) * q)| ≤ 3 / 125 := by
    intro d hd q hq
    refine le_trans (dmul_le hd (B := 3 / 4096000) ?_) (by norm_num)
    rw [abs_mul]
    have := mul_le_mul hux hq (abs_nonneg _) (by norm_num)
    linarith
  have p1 : 0 ≤ (u - 1) * (x - 1) := mul_nonneg (by linarith) (by linarith)
  have p2 : 0 ≤ (2 - u) * (2 - x) := mul_nonneg (by linarith) (by linarith)
  have p3 : 0 ≤ (u - 1) * (2 - x) := mul_nonneg (by linarith) (by linarith)
  have p4 : 0 ≤ (2 - u) * (x - 1) := mul_nonneg (by linarith) (by linarith)
  have p5 : 0 ≤ (2 - u) * (u - 1) := mul_nonneg (by linarith) (by linarith)
  have p6 : 0 ≤ (2 - x) * (x - 1) := mul_nonneg (by linarith) (by linarith)
  have p7 : 0 ≤ (u - 1) * (u - 1) := mul_self_nonneg _
  have p8 : 0 ≤ (x - 1) * (x - 1) := mul_self_nonneg _
  have p9 : 0 ≤ (3 * (u + x) - 10) * (3 * (u + x) - 10) := mul_self_nonneg _
  have p10 : 0 ≤ (u - x) * (u - x) := mul_self_nonneg _
  have D1 := D d1 hd1 (u * u + u * x + x * x - 6 * (u + x) + 11) (by rw [abs_le]; constructor <;> linarith)
  have D2 := D d2 hd2 (u * u + u * x + x * x - 5 * (u + x) + 6) (by rw [abs_le]; constructor <;> linarith)
  have D3 := D d3 hd3 (u * u + u * x + x * x - 4 * (u + x) + 3) (by rw [abs_le]; constructor <;> linarith)
  have D4 := D d4 hd4 (u * u + u * x + x * x - 3 * (u + x) + 2) (by rw [abs_le]; constructor <;> linarith)
  have key : Spec.cubic d1 d2 d3 d4 u - Spec.cubic d1 d2 d3 d4 x =
      -(d1 * ((u - x) * (u * u + u * x + x * x - 6 * (u + x) + 11)) / 6)
      + d2 * ((u - x) * (u * u + u * x + x * x - 5 * (u + x) + 6)) / 2
      - d3 * ((u - x) * (u * u + u * x + x * x - 4 * (u + x) + 3)) / 2
      + d4 * ((u - x) * (u * u + u * x + x * x - 3 * (u + x) + 2)) / 6 := by
    unfold Spec.cubic; ring
  rw [key]
  clear key D p1 p2 p3 p4 p5 p6 p7 p8 p9 p10
  generalize (d1 : ℚ) * ((u - x) * (u * u + u * x + x * x - 6 * (u + x) + 11)) = a at *
  generalize (d2 : ℚ) * ((u - x) * (u * u + u * x + x * x - 5 * (u + x) + 6)) = b at *
  generalize (d3 : ℚ) * ((u - x) * (u * u + u * x + x * x - 4 * (u + x) + 3)) = c at *
  generalize (d4 : ℚ) * ((u - x) * (u * u + u * x + x * x - 3 * (u + x) + 2)) = d at *
  obtain ⟨D1a, D1b⟩ := abs_le.1 D1
  obtain ⟨D2a, D2b⟩ := abs_le.1 D2
  obtain ⟨D3a, D3b⟩ := abs_le.1 D3
  obtain ⟨D4a, D4b⟩ := abs_le.1 D4
  rw [abs_le]; constructor <;> linarith

/-- The value computed by the `float` expression of `fastinterpolate` is within one half of the cubic. -/
theorem fiValue_err (fp : Fp) {d1 d2 d3 d4 : Int} {x : ℚ} (hd1 : InI16 d1) (hd2 : InI16 d2)
    (hd3 : InI16 d3) (hd4 : InI16 d4) (hx1 : 1 ≤ x) (hx2 : x ≤ 2) :
    |fiValue fp d1 d2 d3 d4 x - Spec.cubic d1 d2 d3 d4 x| ≤ 1 / 2 ∧ |fiValue fp d1 d2 d3 d4 x| ≤ 262144 := by
  obtain ⟨l1, u1, e1⟩ := x1_err fp hx1 hx2
  unfold fiValue
  simp only
  generalize hX1 : fp.f.rnd (fp.d.rnd (x * 1000)) = x1 at *
  generalize hX2 : fp.f.rnd (x1 * x1) = x2 at *
  generalize hX3 : fp.f.rnd (x2 * x1) = x3 at *
  obtain ⟨u, hu⟩ : ∃ u, x1 = 1000 * u := ⟨x1 / 1000, by ring⟩
  have hu1 : 1 ≤ u := by linarith
  have hu2 : u ≤ 2 := by linarith
  have hux : |u - x| ≤ 1 / 4096000 := by
    rw [hu] at e1
    obtain ⟨_, _⟩ := abs_le.1 e1
    rw [abs_le]; constructor <;> linarith
  obtain ⟨G1, G2, G3, G4⟩ := groups fp.f hu1 hu2 x1 x2 x3 hu hX2.symm hX3.symm
  obtain ⟨⟨b1, b1'⟩, ⟨b2, b2'⟩, ⟨b3, b3'⟩, b4, b4'⟩ := unit_bounds hu1 hu2
  generalize fp.f.rnd (fiPoly fp.f x1 x2 x3 6000 11000000 - 6000000000) = p1 at *
  generalize fiPoly fp.f x1 x2 x3 5000 6000000 = p2 at *
  generalize fiPoly fp.f x1 x2 x3 4000 3000000 = p3 at *
  generalize fiPoly fp.f x1 x2 x3 3000 2000000 = p4 at *
  have S := cubic_shift hd1 hd2 hd3 hd4 hu1 hu2 hx1 hx2 hux
  have key : Spec.cubic d1 d2 d3 d4 u =
      d1 * (1000000000 * ((u - 1) * (2 - u) * (3 - u))) / -6000000000
      + d2 * (1000000000 * (u * (2 - u) * (3 - u))) / 2000000000
      + d3 * -(1000000000 * (u * (u - 1) * (3 - u))) / -2000000000
      + d4 * -(1000000000 * (u * ((u - 1) * (2 - u)))) / 6000000000 := by
    unfold Spec.cubic; ring
  clear hX1 hX2 hX3 hu l1 u1 e1 hux
  obtain ⟨T1, T1'⟩ := term_err fp.f (c := -6000000000) 45 15 hd1 (by norm_num) G1
    (le_trans (dmul_le hd1 (B := 600000000)
      (by obtain ⟨_, _⟩ := abs_le.1 G1; rw [abs_le]; constructor <;> linarith)) (by norm_num)) (by norm_num)
  obtain ⟨T2, T2'⟩ := term_err fp.f (c := 2000000000) 46 16 hd2 (by norm_num) G2
    (le_trans (dmul_le hd2 (B := 2001000000)
      (by obtain ⟨_, _⟩ := abs_le.1 G2; rw [abs_le]; constructor <;> linarith)) (by norm_num)) (by norm_num)
  obtain ⟨T3, T3'⟩ := term_err fp.f (c := -2000000000) 46 16 hd3 (by norm_num) G3
    (le_trans (dmul_le hd3 (B := 2126000000)
      (by obtain ⟨_, _⟩ := abs_le.1 G3; rw [abs_le]; constructor <;> linarith)) (by norm_num)) (by norm_num)
  obtain ⟨T4, T4'⟩ := term_err fp.f (c := 6000000000) 45 15 hd4 (by norm_num) G4
    (le_trans (dmul_le hd4 (B := 600000000)
      (by obtain ⟨_, _⟩ := abs_le.1 G4; rw [abs_le]; constructor <;> linarith)) (by norm_num)) (by norm_num)
  obtain ⟨A, B⟩ := sum_err fp.f (le_trans T1 (by norm_num)) (le_trans T2 (by norm_num)) (le_trans T3 (by norm_num))
    (le_trans T4 (by norm_num)) (le_trans T1' (by norm_num)) (le_trans T2' (by norm_num))
    (le_trans T3' (by norm_num)) (le_trans T4' (by norm_num))
  rw [← key] at A
  refine ⟨?_, B⟩
  have := abs_sub_le (fp.f.rnd (fp.f.rnd (fp.f.rnd (fiTerm fp.f d1 p1 (-6000000000) + fiTerm fp.f d2 p2 2000000000)
    + fiTerm fp.f d3 p3 (-2000000000)) + fiTerm fp.f d4 p4 6000000000)) (Spec.cubic d1 d2 d3 d4 u)
    (Spec.cubic d1 d2 d3 d4 x)
  linarith

end TVP
