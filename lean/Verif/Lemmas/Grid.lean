import Verif.Lemmas.Reader
import Verif.FpIEEE

/-!
# The fractional position accumulator
-/

namespace TVP

/-- `x` is a multiple of `2^-p`. -/
def OnGrid (p : Nat) (x : ℚ) : Prop := ∃ a : Int, x = a / 2 ^ p

/-- A rate that is a multiple of `2^-p` and not above `2^(52-p)`, and small enough for a 32-bit frame step. -/
structure GridRate (p : Nat) (r : ℚ) : Prop where
  hp : p ≤ 52
  grid : OnGrid p r
  bound : |r| ≤ 2 ^ (52 - p)
  small : |r| ≤ 2 ^ 30

theorem OnGrid.add {p : Nat} {x y : ℚ} (hx : OnGrid p x) (hy : OnGrid p y) : OnGrid p (x + y) := by
  obtain ⟨a, rfl⟩ := hx; obtain ⟨b, rfl⟩ := hy
  exact ⟨a + b, by push_cast; ring⟩

theorem OnGrid.neg {p : Nat} {x : ℚ} (hx : OnGrid p x) : OnGrid p (-x) := by
  obtain ⟨a, rfl⟩ := hx
  exact ⟨-a, by push_cast; ring⟩

theorem OnGrid.int (p : Nat) (n : Int) : OnGrid p (n : ℚ) :=
  ⟨n * 2 ^ p, by push_cast; field_simp⟩

theorem OnGrid.sub {p : Nat} {x y : ℚ} (hx : OnGrid p x) (hy : OnGrid p y) : OnGrid p (x - y) := by
  rw [sub_eq_add_neg]; exact hx.add hy.neg

theorem GridRate.neg {p : Nat} {x : ℚ} (h : GridRate p x) : GridRate p (-x) :=
  ⟨h.hp, h.grid.neg, by rw [abs_neg]; exact h.bound, by rw [abs_neg]; exact h.small⟩

/-- Grid numbers up to `2^(53-p)` are doubles. -/
theorem OnGrid.exact {p : Nat} (hp : p ≤ 52) {x : ℚ} (hx : OnGrid p x) (hb : |x| ≤ 2 ^ (53 - p)) (R : Fp64) :
    R.rnd x = x := by
  obtain ⟨a, rfl⟩ := hx
  have h2 : (0 : ℚ) < 2 ^ p := by positivity
  have ha : |a| ≤ 2 ^ 53 := by
    rw [abs_div, abs_of_pos h2, div_le_iff₀ h2, ← pow_add, show 53 - p + p = 53 by omega] at hb
    exact_mod_cast hb
  apply R.exact
  have := Rounding.isFloat_of (p := 53) (emin := -1074) (by norm_num) (m := a) (e := -p) ha (by omega)
  rw [zpow_neg, zpow_natCast] at this
  rw [div_eq_mul_inv]; exact this

/-- The truncated part of `s` and what is left. -/
theorem trunc_rest (s : ℚ) : |s - trunc s| < 1 := by
  rw [abs_sub_comm]; exact trunc_near s

/-- The accumulator update is exact on the grid. -/
theorem accum_exact {p : Nat} {rate rem : ℚ} (hr : GridRate p rate) (hg : OnGrid p rem) (h1 : |rem| < 1) (R : Fp64) :
    R.rnd (rem + rate) = rem + rate ∧
    R.rnd (rem + rate - (trunc (rem + rate) : Int)) = rem + rate - (trunc (rem + rate) : Int) ∧
    OnGrid p (rem + rate - (trunc (rem + rate) : Int)) := by
  have hp := hr.hp
  have hg' := hg.add hr.grid
  have hg'' := hg'.sub (OnGrid.int p (trunc (rem + rate)))
  have hone : (1 : ℚ) ≤ 2 ^ (52 - p) := one_le_pow₀ (by norm_num)
  have htwo : (2 : ℚ) ^ (53 - p) = 2 * 2 ^ (52 - p) := by
    rw [← pow_succ']; congr 1; omega
  refine ⟨hg'.exact hp ?_ R, hg''.exact hp ?_ R, hg''⟩
  · have := abs_add_le rem rate; have := hr.bound; linarith
  · have := trunc_rest (rem + rate); linarith

theorem abs_trunc_le {s : ℚ} {b : Int} (h : |s| ≤ b) : |trunc s| ≤ b := by
  obtain ⟨h1, h2⟩ := abs_le.1 h
  have := trunc_between (a := -b) (b := b) (q := s) (by push_cast; exact h1) h2
  exact abs_le.2 this

/-- `stepOn` on the grid: no rounding, no fault if the new position fits. -/
theorem stepOn_grid (fp : Fp) {r : Rd} {p : Nat} (hr : GridRate p r.rate) (hg : OnGrid p r.rem) (h1 : |r.rem| < 1)
    (hc : r.cfOn = false)
    (hstep : InI32 (trunc (r.rem + r.rate) * r.nch)) (hpos : InI32 (r.pos1 + trunc (r.rem + r.rate) * r.nch)) :
    stepOn fp r = .ok { r with rem := r.rem + r.rate - (trunc (r.rem + r.rate) : Int),
                               pos1 := r.pos1 + trunc (r.rem + r.rate) * r.nch } := by
  obtain ⟨e1, e2, _⟩ := accum_exact hr hg h1 fp.d
  have hs : |r.rem + r.rate| ≤ 2 ^ 30 + 1 := by
    have := abs_add_le r.rem r.rate; have := hr.small; linarith
  obtain ⟨s1, s2⟩ := abs_le.1 hs
  unfold stepOn
  simp only [e1]
  rw [castI32_ok (by linarith) (by linarith)]
  simp only [ok_bind, e2, chkI32_ok hstep, chkI32_ok hpos, hc, Bool.false_eq_true, if_false, pure_eq_ok]

/-! ## Arbitrary doubles -/

/-- Every result is representable (what makes a rounding function one). -/
def Representable (fp : Fp) : Prop := ∀ x, IsFloat 53 (-1074) (fp.d.rnd x)

/-- The fraction of a double is a double. -/
theorem frac_isFloat {s : ℚ} (h : IsFloat 53 (-1074) s) : IsFloat 53 (-1074) (s - (trunc s : Int)) := by
  obtain ⟨m, e, hm, he, rfl⟩ := h
  rcases le_or_gt 0 e with h0 | h0
  · have hi : (m : ℚ) * 2 ^ e = ((m * 2 ^ e.toNat : Int) : ℚ) := by
      push_cast; rw [← zpow_natCast, Int.toNat_of_nonneg h0]
    rw [hi, trunc_int, sub_self]
    exact ⟨0, 0, by norm_num, by norm_num, by simp⟩
  · -- s = m / 2^k; the fraction is a multiple of 2^-k of no larger magnitude
    obtain ⟨k, rfl⟩ : ∃ k : Nat, e = -(k : Int) := ⟨(-e).toNat, by omega⟩
    set s : ℚ := m * 2 ^ (-(k : Int)) with hs
    have h2 : (0 : ℚ) < 2 ^ k := by positivity
    have hsd : s = m / 2 ^ k := by rw [hs, zpow_neg, zpow_natCast]; rfl
    refine ⟨m - trunc s * 2 ^ k, -(k : Int), ?_, he, ?_⟩
    · have hle : |s - (trunc s : Int)| ≤ |s| := by
        unfold trunc
        split
        · rename_i h
          have f1 := Int.floor_le s
          have f2 : (0 : ℚ) ≤ (⌊s⌋ : Int) := by exact_mod_cast Int.floor_nonneg.2 h
          rw [abs_of_nonneg (by linarith), abs_of_nonneg h]; linarith
        · rename_i h
          have f1 := Int.floor_le (-s)
          have f2 : (0 : ℚ) ≤ (⌊-s⌋ : Int) := by exact_mod_cast Int.floor_nonneg.2 (by linarith)
          push_cast
          rw [abs_of_nonpos (by linarith), abs_of_nonpos (by linarith)]; linarith
      have he1 : s - (trunc s : Int) = ((m - trunc s * 2 ^ k : Int) : ℚ) / 2 ^ k := by
        rw [hsd]; push_cast; field_simp
      rw [he1, hsd, abs_div, abs_div, abs_of_pos h2, div_le_div_iff_of_pos_right h2] at hle
      have : |m - trunc s * 2 ^ k| ≤ |m| := by
        rw [← hsd] at hle; exact_mod_cast hle
      omega
    · rw [zpow_neg, zpow_natCast, hsd]; push_cast; field_simp

theorem nearestEven_representable {p : Nat} (hp : 0 < p) (emin : Int) (x : ℚ) :
    IsFloat p emin (rneTo p emin x) := by
  set u := ulpExp p emin x with hu
  have hx := abs_lt_ulp p emin x
  rw [← hu] at hx
  have hq : |x / 2 ^ u| ≤ ((2 ^ p : Int) : ℚ) := by
    rw [abs_div, abs_of_pos (zpow2_pos u), div_le_iff₀ (zpow2_pos u)]
    push_cast
    rw [← zpow_natCast, ← zpow_add₀ (by norm_num), add_comm]; exact le_of_lt hx
  obtain ⟨q1, q2⟩ := abs_le.1 hq
  have r1 := rne_mono q2
  have r2 : rne ((-(2 ^ p) : Int) : ℚ) ≤ rne (x / 2 ^ u) := rne_mono (by push_cast at q1 ⊢; exact q1)
  rw [rne_int] at r1 r2
  unfold rneTo
  rw [← hu]
  exact Rounding.isFloat_of hp (abs_le.2 ⟨r2, r1⟩) (by rw [hu]; exact le_max_left _ _)

theorem ieee_representable : Representable Fp.ieee := nearestEven_representable (by norm_num) _

end TVP
