import Verif.Lemmas.Path
import Verif.Lemmas.Drift
import Verif.Spec.Tune

/-!
# Speeds of which the positions are not exact

The accumulator rounds once in each frame; how far off this brings the position.
-/

namespace TVP
open Spec

/-- A rounding to double precision moves a number up to `2^k` by at most `2^k / 2^53`. -/
theorem rnd_near (d : Fp64) {y : ℚ} {k : Nat} (h : |y| ≤ 2 ^ k) : |d.rnd y - y| ≤ 2 ^ k / 2 ^ 53 := by
  obtain ⟨hl, hu⟩ := abs_le.1 h
  set u : ℚ := 2 ^ k / 2 ^ 53 with hu0
  have hup : 0 < u := by positivity
  have hz : u = (2 : ℚ) ^ ((k : Int) - 53) := by
    rw [hu0, zpow_sub₀ (by norm_num)]; norm_cast
  have e53 : u * 9007199254740992 = 2 ^ k := by rw [hu0]; norm_num
  have flt : ∀ m : Int, |m| ≤ 2 ^ 53 → IsFloat 53 (-1074) (m * u) := by
    intro m hm
    rcases lt_or_eq_of_le hm with h1 | h1
    · exact ⟨m, (k : Int) - 53, h1, by omega, by rw [hz]⟩
    · rcases abs_eq (by norm_num) |>.1 h1 with h2 | h2
      · refine ⟨1, k, by norm_num, by omega, ?_⟩
        rw [h2]; push_cast; rw [mul_comm, e53]; simp
      · refine ⟨-1, k, by norm_num, by omega, ?_⟩
        rw [h2]; push_cast; rw [neg_mul, mul_comm, e53]; simp
  set m : Int := ⌊y / u⌋ with hm
  have h1 : (m : ℚ) * u ≤ y := by
    have := Int.floor_le (y / u)
    rwa [le_div_iff₀ hup] at this
  have h2 : y < ((m + 1 : Int) : ℚ) * u := by
    have := Int.lt_floor_add_one (y / u)
    rw [div_lt_iff₀ hup] at this
    push_cast; exact this
  have hm0 : -(2 : Int) ^ 53 ≤ m := by
    rw [hm, Int.le_floor, le_div_iff₀ hup]
    push_cast
    rw [neg_mul, mul_comm, e53]; exact hl
  have hm1 : m ≤ 2 ^ 53 := by
    have : (m : ℚ) * u ≤ ((2 ^ 53 : Int) : ℚ) * u := by push_cast; linarith
    exact_mod_cast le_of_mul_le_mul_right this hup
  have k1 := d.mono h1
  rw [d.exact _ (flt m (abs_le.2 ⟨hm0, hm1⟩))] at k1
  rcases lt_or_eq_of_le hm1 with h3 | h3
  · have k2 := d.mono (le_of_lt h2)
    rw [d.exact _ (flt (m + 1) (abs_le.2 ⟨by omega, by omega⟩))] at k2
    push_cast at h2 k2
    rw [abs_le]; constructor <;> linarith
  · have e : y = m * u := by
      apply le_antisymm _ h1
      rw [h3]; push_cast; rw [mul_comm, e53]; exact hu
    rw [e, d.exact _ (flt m (abs_le.2 ⟨hm0, hm1⟩)), sub_self, abs_zero]
    exact le_of_lt hup

theorem rnd_int (d : Fp64) {n : Int} (h : |n| < 2 ^ 53) : d.rnd n = n := d.exact _ ⟨n, 0, h, by norm_num, by simp⟩

/-! ## Forwards -/

/-- Where the player really is after `t` frames. -/
def driftAt (fp : Fp) (x r : ℚ) : Nat → ℚ
  | 0 => x
  | t + 1 => ⌊driftAt fp x r t⌋ + fp.d.rnd (Int.fract (driftAt fp x r t) + r)

def driftPath (fp : Fp) (F : Nat) (x r : ℚ) (t : Nat) : Option Nat := if ⌊driftAt fp x r t⌋ < F then some ⌊driftAt fp x r t⌋.toNat else none

theorem drift_sum {y r : ℚ} {k : Nat} (h0 : 0 ≤ r) (h1 : r + 1 ≤ 2 ^ k) : |Int.fract y + r| ≤ 2 ^ k := by
  have := Int.fract_nonneg y
  have := Int.fract_lt_one y
  rw [abs_of_nonneg (by linarith)]
  linarith

theorem drift_near (fp : Fp) {x r : ℚ} {k : Nat} (h0 : 0 ≤ r) (h1 : r + 1 ≤ 2 ^ k) : ∀ t : Nat, |driftAt fp x r t - (x + t * r)| ≤ t * (2 ^ k / 2 ^ 53)
  | 0 => by simp [driftAt]
  | t + 1 => by
    have ih := drift_near fp (x := x) h0 h1 t
    have hr := rnd_near fp.d (drift_sum (y := driftAt fp x r t) h0 h1)
    have e := Int.floor_add_fract (driftAt fp x r t)
    unfold driftAt
    rw [abs_le] at *
    push_cast
    constructor <;> linarith [ih.1, ih.2, hr.1, hr.2]

theorem drift_mono (fp : Fp) (hfp : Representable fp) {x r : ℚ} (h0 : 0 ≤ r) (hx : IsFloat 53 (-1074) (Int.fract x)) :
    ∀ t : Nat, IsFloat 53 (-1074) (Int.fract (driftAt fp x r t)) ∧ ⌊driftAt fp x r t⌋ ≤ ⌊driftAt fp x r (t + 1)⌋
  | 0 => by
    refine ⟨hx, ?_⟩
    show ⌊x⌋ ≤ ⌊(⌊x⌋ : ℚ) + fp.d.rnd (Int.fract x + r)⌋
    rw [Int.floor_intCast_add]
    have h := fp.d.mono (show Int.fract x ≤ Int.fract x + r by linarith)
    rw [fp.d.exact _ hx] at h
    have := Int.floor_nonneg.2 (le_trans (Int.fract_nonneg x) h)
    omega
  | t + 1 => by
    have hf : IsFloat 53 (-1074) (Int.fract (driftAt fp x r (t + 1))) := by
      have h := (drift_mono fp hfp h0 hx t).1
      have h2 := fp.d.mono (show Int.fract (driftAt fp x r t) ≤ Int.fract (driftAt fp x r t) + r by linarith)
      rw [fp.d.exact _ h] at h2
      have h3 := frac_isFloat (hfp (Int.fract (driftAt fp x r t) + r))
      rw [trunc_of_nonneg (le_trans (Int.fract_nonneg _) h2)] at h3
      show IsFloat 53 (-1074) (Int.fract ((⌊driftAt fp x r t⌋ : ℚ) + _))
      rw [Int.fract_intCast_add]
      exact h3
    refine ⟨hf, ?_⟩
    show ⌊driftAt fp x r (t + 1)⌋ ≤ ⌊(⌊driftAt fp x r (t + 1)⌋ : ℚ) + fp.d.rnd (Int.fract (driftAt fp x r (t + 1)) + r)⌋
    rw [Int.floor_intCast_add]
    have h := fp.d.mono (show Int.fract (driftAt fp x r (t + 1)) ≤ Int.fract (driftAt fp x r (t + 1)) + r by linarith)
    rw [fp.d.exact _ hf] at h
    have := Int.floor_nonneg.2 (le_trans (Int.fract_nonneg (driftAt fp x r (t + 1))) h)
    omega

theorem drift_nonneg (fp : Fp) (hfp : Representable fp) {x r : ℚ} (h0 : 0 ≤ r) (hx : IsFloat 53 (-1074) (Int.fract x)) (hx0 : 0 ≤ x) : ∀ t : Nat, 0 ≤ ⌊driftAt fp x r t⌋
  | 0 => Int.floor_nonneg.2 hx0
  | t + 1 => le_trans (drift_nonneg fp hfp h0 hx hx0 t) (drift_mono fp hfp h0 hx t).2

theorem driftPath_inTune (fp : Fp) (hfp : Representable fp) {x r : ℚ} {k F : Nat} (h0 : 0 ≤ r) (h1 : r + 1 ≤ 2 ^ k) (hx : IsFloat 53 (-1074) (Int.fract x)) (hx0 : 0 ≤ x) :
    InTune (driftPath fp F x r) x r (2 ^ k / 2 ^ 53) F where
  frame t i h := by
    unfold driftPath at h
    split at h
    · rename_i hlt
      have hi := Option.some.inj h
      have hnn := drift_nonneg fp hfp h0 hx hx0 t
      have e : (⌊driftAt fp x r t⌋ : Int) = (i : Int) := by omega
      have hn := abs_le.1 (drift_near fp (x := x) h0 h1 t)
      have f1 := Int.floor_le (driftAt fp x r t)
      have f2 := Int.lt_floor_add_one (driftAt fp x r t)
      rw [e] at f1 f2 hlt
      push_cast at f1 f2
      exact ⟨by exact_mod_cast hlt, by linarith [hn.2], by linarith [hn.1]⟩
    · cases h
  over t h := by
    unfold driftPath at h
    split at h
    · cases h
    · rename_i hlt
      have hn := abs_le.1 (drift_near fp (x := x) h0 h1 t)
      have f1 := Int.floor_le (driftAt fp x r t)
      have : ((F : Int) : ℚ) ≤ ⌊driftAt fp x r t⌋ := by exact_mod_cast not_lt.1 hlt
      push_cast at this
      linarith [hn.2]
  onward t i j h1 h2 := by
    have hm := (drift_mono fp hfp h0 hx t).2
    unfold driftPath at h1 h2
    split at h1
    · split at h2
      · have := Option.some.inj h1
        have := Option.some.inj h2
        omega
      · cases h2
    · cases h1
  stays t h := by
    have hm := (drift_mono fp hfp h0 hx t).2
    unfold driftPath at h ⊢
    split at h
    · cases h
    · rw [if_neg]
      omega

/-- A reader going forwards at any speed, at position `y`. -/
structure Ambles (r : Rd) (R : Int) (y : ℚ) : Prop where
  plain : Plain r
  loop : r.loopType = .none
  rate0 : 0 ≤ r.rate
  rateR : r.rate ≤ R
  R30 : R ≤ 2 ^ 30
  pos : r.pos1 = r.header + ⌊y⌋ * r.nch
  rem : r.rem = Int.fract y
  flt : IsFloat 53 (-1074) (Int.fract y)
  y0 : 0 ≤ ⌊y⌋
  header0 : 0 ≤ r.header
  F0 : 0 ≤ r.fileSamples
  fits : r.header + r.nch * (r.fileSamples + R + 1) ≤ 2147483647
  yR : ⌊y⌋ ≤ r.fileSamples + R

theorem Ambles.R0 {r : Rd} {R : Int} {y : ℚ} (h : Ambles r R y) : 0 ≤ R := by
  have : (0 : ℚ) ≤ R := le_trans h.rate0 h.rateR
  exact_mod_cast this

theorem Ambles.atEnd {r : Rd} {R : Int} {y : ℚ} (h : Ambles r R y) : r.atEnd = decide (r.fileSamples ≤ ⌊y⌋) := by
  have hR := h.R0
  have hn := h.plain.nch
  have f := frame_fits h.header0 (le_of_lt hn) h.F0 (show r.fileSamples ≤ r.fileSamples + R + 1 by omega) h.fits
  have hp : r.posOf r.fileSamples = r.header + r.fileSamples * r.nch := posOf_eq ⟨by have := h.header0; omega, f.2⟩
  unfold Rd.atEnd
  simp only [h.plain.dual, Bool.false_eq_true, if_false, h.rate0, ge_iff_le, if_true, h.loop, hp, h.pos]
  congr 1
  apply propext
  constructor
  · intro hle
    have : r.fileSamples * r.nch ≤ ⌊y⌋ * r.nch := by omega
    exact le_of_mul_le_mul_right this hn
  · intro hle
    have := mul_le_mul_of_nonneg_right hle (le_of_lt hn)
    omega

theorem Ambles.step {fp : Fp} (hfp : Representable fp) {r : Rd} {R : Int} {y : ℚ} (h : Ambles r R y) (hy : ⌊y⌋ < r.fileSamples) :
    ∃ r2, stepOn fp r = .ok r2 ∧ Ambles r2 R (⌊y⌋ + fp.d.rnd (Int.fract y + r.rate)) ∧ r2.rate = r.rate ∧ SameConf r r2 := by
  have hR := h.R0
  have hn := h.plain.nch
  have hf0 := Int.fract_nonneg y
  have hf1 := Int.fract_lt_one y
  have hrem1 : |r.rem| < 1 := by rw [h.rem, abs_of_nonneg hf0]; exact hf1
  have hy0 := h.y0
  have hF0 := h.F0
  obtain ⟨δ, f, e, k1, k2, k3, k4, k5⟩ := stepOn_any fp hfp (R := R) (by rw [abs_of_nonneg h.rate0]; exact h.rateR) h.R30 (by rw [h.rem]; exact h.flt) hrem1 h.plain.cfOn (by
    intro δ g1 g2 _
    have g2 := g2 h.rate0
    rw [abs_of_nonneg g2] at g1
    have f1 := frame_fits h.header0 (le_of_lt hn) g2 (show δ ≤ r.fileSamples + R + 1 by omega) h.fits
    have f2 := frame_fits h.header0 (le_of_lt hn) (show 0 ≤ ⌊y⌋ + δ by omega) (show ⌊y⌋ + δ ≤ r.fileSamples + R + 1 by omega) h.fits
    have e2 : r.pos1 + δ * r.nch = r.header + (⌊y⌋ + δ) * r.nch := by rw [h.pos]; ring
    have hH := h.header0
    rw [e2]
    unfold InI32
    constructor <;> constructor <;> omega)
  have k2 := k2 h.rate0
  obtain ⟨p2, e'⟩ := stepOn_inv e
  set s := fp.d.rnd (r.rem + r.rate) with hs
  have hs0 : 0 ≤ s := by
    have h2 := fp.d.mono (show Int.fract y ≤ r.rem + r.rate by rw [h.rem]; linarith [h.rate0])
    rw [fp.d.exact _ h.flt] at h2
    exact le_trans hf0 h2
  have hff := frac_isFloat (hfp (r.rem + r.rate))
  have e1 : f = Int.fract s := by
    have := congrArg Rd.rem e'
    simp only at this
    rw [this, fp.d.exact _ hff, trunc_of_nonneg hs0]
    rfl
  have e2 : δ = ⌊s⌋ := by
    have := congrArg Rd.pos1 e'
    simp only at this
    rw [trunc_of_nonneg hs0] at this
    exact mul_right_cancel₀ (ne_of_gt hn) (show δ * r.nch = ⌊s⌋ * r.nch by omega)
  rw [← h.rem, ← hs]
  have f1 : ⌊(⌊y⌋ : ℚ) + s⌋ = ⌊y⌋ + δ := by rw [Int.floor_intCast_add, e2]
  have f2 : Int.fract ((⌊y⌋ : ℚ) + s) = f := by rw [Int.fract_intCast_add, e1]
  rw [abs_of_nonneg k2] at k1
  refine ⟨_, e, ⟨⟨h.plain.dual, h.plain.interp, h.plain.cfOn, h.plain.nch⟩, h.loop, h.rate0, h.rateR, h.R30, ?_, f2.symm, by rw [f2]; exact k4, by rw [f1]; omega, h.header0, h.F0, h.fits,
    by rw [f1]; simp only; omega⟩, rfl, ⟨rfl, rfl, rfl, rfl, rfl, rfl, rfl, rfl, rfl, rfl, rfl, rfl, rfl, rfl⟩⟩
  simp only
  rw [f1, h.pos]; ring

/-- A reader that has delivered `t` frames. -/
def Ambling (fp : Fp) (R : Int) (F : Nat) (x v : ℚ) (t : Nat) (r : Rd) : Prop := Ambles r R (driftAt fp x v t) ∧ r.rate = v ∧ r.fileSamples = F

variable {fp : Fp} {data : List Int} {H nch : Nat}

theorem amble_turns (hfp : Representable fp) {R : Int} {F : Nat} {x v : ℚ} (hv : 0 ≤ v) (hx : IsFloat 53 (-1074) (Int.fract x)) (hlen : H + F * nch ≤ data.length) :
    Turns fp data H nch (driftPath fp F x v) (Ambling fp R F x v) where
  ends := by
    intro t h
    unfold driftPath at h ⊢
    split at h
    · cases h
    · rename_i hlt
      rw [if_neg]
      have := (drift_mono fp hfp hv hx t).2
      omega
  dual h := h.1.plain.dual
  stop {t r} h e := by
    refine ⟨h.1.plain, ?_, h.1.loop⟩
    rw [h.1.atEnd, h.2.2]
    unfold driftPath at e
    split at e
    · cases e
    · rename_i hlt; simpa using hlt
  go {t r i} h hc hH e := by
    obtain ⟨hA, hrate, hF⟩ := h
    unfold driftPath at e
    split at e
    · rename_i hlt
      have hi := Option.some.inj e
      have hy0 := hA.y0
      have ei : (⌊driftAt fp x v t⌋ : Int) = (i : Int) := by omega
      obtain ⟨r2, k1, k2, k3, k4⟩ := hA.step hfp (by rw [hF]; exact hlt)
      have hn := hA.plain.nch
      have hR := hA.R0
      have f := frame_fits hA.header0 (le_of_lt hn) (show 0 ≤ (i : Int) + 1 by omega) (show (i : Int) + 1 ≤ r.fileSamples + R + 1 by omega) hA.fits
      rw [hc] at hn
      rw [hH, hc] at f
      have f2 : ((i : Int) + 1) * nch ≤ F * nch := mul_le_mul_of_nonneg_right (by omega) (le_of_lt hn)
      refine ⟨r, r2, Or.inl ⟨by rw [hA.atEnd, hF]; simpa using hlt, rfl⟩, hA.plain, SameConf.refl r, by rw [← ei, hA.pos, hc, hH], ?_, f.2, k1, k4, ?_, by rw [k3, hrate],
        by rw [k4.fileSamples, hF]⟩
      · have : ((H + (i + 1) * nch : Nat) : Int) ≤ data.length := by push_cast; omega
        exact_mod_cast this
      · rw [hrate] at k2; exact k2
    · cases e

/-! ## Backwards -/

/-- Where the player really is after `t` frames backwards. -/
def driftBackAt (fp : Fp) (x ρ : ℚ) : Nat → ℚ
  | 0 => x
  | t + 1 => ⌈driftBackAt fp x ρ t⌉ + fp.d.rnd (driftBackAt fp x ρ t - ⌈driftBackAt fp x ρ t⌉ - ρ)

def driftBackPath (fp : Fp) (x ρ : ℚ) (t : Nat) : Option Nat := if 0 ≤ ⌈driftBackAt fp x ρ t⌉ then some ⌈driftBackAt fp x ρ t⌉.toNat else none

theorem ceil_rest (y : ℚ) : y - ⌈y⌉ ≤ 0 ∧ -1 < y - ⌈y⌉ := by
  have := Int.le_ceil y
  have := Int.ceil_lt_add_one y
  constructor <;> linarith

theorem driftBack_sum {y ρ : ℚ} {k : Nat} (h0 : 0 ≤ ρ) (h1 : ρ + 1 ≤ 2 ^ k) : |y - ⌈y⌉ - ρ| ≤ 2 ^ k := by
  have := ceil_rest y
  rw [abs_of_nonpos (by linarith)]
  linarith

theorem driftBack_near (fp : Fp) {x ρ : ℚ} {k : Nat} (h0 : 0 ≤ ρ) (h1 : ρ + 1 ≤ 2 ^ k) : ∀ t : Nat, |driftBackAt fp x ρ t - (x - t * ρ)| ≤ t * (2 ^ k / 2 ^ 53)
  | 0 => by simp [driftBackAt]
  | t + 1 => by
    have ih := driftBack_near fp (x := x) h0 h1 t
    have hr := rnd_near fp.d (driftBack_sum (y := driftBackAt fp x ρ t) h0 h1)
    unfold driftBackAt
    rw [abs_le] at *
    push_cast
    constructor <;> linarith [ih.1, ih.2, hr.1, hr.2]

theorem driftBack_next (fp : Fp) (hfp : Representable fp) {y ρ : ℚ} (h0 : 0 ≤ ρ) (hy : IsFloat 53 (-1074) (y - ⌈y⌉)) :
    fp.d.rnd (y - ⌈y⌉ - ρ) ≤ 0 ∧ ⌈(⌈y⌉ : ℚ) + fp.d.rnd (y - ⌈y⌉ - ρ)⌉ ≤ ⌈y⌉ ∧
      IsFloat 53 (-1074) ((⌈y⌉ : ℚ) + fp.d.rnd (y - ⌈y⌉ - ρ) - ⌈(⌈y⌉ : ℚ) + fp.d.rnd (y - ⌈y⌉ - ρ)⌉) := by
  have h2 := fp.d.mono (show y - ⌈y⌉ - ρ ≤ y - ⌈y⌉ by linarith)
  rw [fp.d.exact _ hy] at h2
  have h3 : fp.d.rnd (y - ⌈y⌉ - ρ) ≤ 0 := le_trans h2 (ceil_rest y).1
  have h4 := frac_isFloat (hfp (y - ⌈y⌉ - ρ))
  rw [trunc_of_nonpos h3] at h4
  have h5 : ⌈fp.d.rnd (y - ⌈y⌉ - ρ)⌉ ≤ 0 := by rw [Int.ceil_le]; simpa using h3
  rw [Int.ceil_intCast_add]
  refine ⟨h3, by omega, ?_⟩
  convert h4 using 1
  push_cast; ring

theorem driftBack_flt (fp : Fp) (hfp : Representable fp) {x ρ : ℚ} (h0 : 0 ≤ ρ) (hx : IsFloat 53 (-1074) (x - ⌈x⌉)) :
    ∀ t : Nat, IsFloat 53 (-1074) (driftBackAt fp x ρ t - ⌈driftBackAt fp x ρ t⌉)
  | 0 => hx
  | t + 1 => (driftBack_next fp hfp h0 (driftBack_flt fp hfp h0 hx t)).2.2

theorem driftBack_mono (fp : Fp) (hfp : Representable fp) {x ρ : ℚ} (h0 : 0 ≤ ρ) (hx : IsFloat 53 (-1074) (x - ⌈x⌉)) (t : Nat) :
    ⌈driftBackAt fp x ρ (t + 1)⌉ ≤ ⌈driftBackAt fp x ρ t⌉ := (driftBack_next fp hfp h0 (driftBack_flt fp hfp h0 hx t)).2.1

theorem driftBackPath_inTune (fp : Fp) (hfp : Representable fp) {x ρ : ℚ} {k : Nat} (h0 : 0 ≤ ρ) (h1 : ρ + 1 ≤ 2 ^ k) (hx : IsFloat 53 (-1074) (x - ⌈x⌉)) :
    InTuneBack (driftBackPath fp x ρ) x ρ (2 ^ k / 2 ^ 53) where
  frame t i h := by
    unfold driftBackPath at h
    split at h
    · have hi := Option.some.inj h
      have e : (⌈driftBackAt fp x ρ t⌉ : Int) = (i : Int) := by omega
      have hn := abs_le.1 (driftBack_near fp (x := x) h0 h1 t)
      have f1 := Int.le_ceil (driftBackAt fp x ρ t)
      have f2 := Int.ceil_lt_add_one (driftBackAt fp x ρ t)
      rw [e] at f1 f2
      push_cast at f1 f2
      exact ⟨by linarith [hn.2], by linarith [hn.1]⟩
    · cases h
  over t h := by
    unfold driftBackPath at h
    split at h
    · cases h
    · rename_i hlt
      have hn := abs_le.1 (driftBack_near fp (x := x) h0 h1 t)
      have f1 := Int.le_ceil (driftBackAt fp x ρ t)
      have : (⌈driftBackAt fp x ρ t⌉ : ℚ) ≤ ((-1 : Int) : ℚ) := by exact_mod_cast (show ⌈driftBackAt fp x ρ t⌉ ≤ -1 by omega)
      push_cast at this
      linarith [hn.1]
  onward t i j h1 h2 := by
    have hm := driftBack_mono fp hfp h0 hx t
    unfold driftBackPath at h1 h2
    split at h1
    · split at h2
      · have := Option.some.inj h1
        have := Option.some.inj h2
        omega
      · cases h2
    · cases h1
  stays t h := by
    have hm := driftBack_mono fp hfp h0 hx t
    unfold driftBackPath at h ⊢
    split at h
    · cases h
    · rw [if_neg]
      omega

/-- A reader going backwards at any speed, at position `y`, down to frame 0. -/
structure Strolls (r : Rd) (R : Int) (y : ℚ) : Prop where
  plain : Plain r
  loop : r.loopType = .none
  rate0 : r.rate < 0
  rateR : -r.rate ≤ R
  R30 : R ≤ 2 ^ 30
  pos : r.pos1 = r.header + ⌈y⌉ * r.nch
  rem : r.rem = y - ⌈y⌉
  flt : IsFloat 53 (-1074) (y - ⌈y⌉)
  header0 : 0 ≤ r.header
  low : r.playStart = .sample ∨ r.loopStart = 0
  F0 : 0 ≤ r.fileSamples
  fits : r.header + r.nch * (r.fileSamples + R + 1) ≤ 2147483647
  yF : ⌈y⌉ < r.fileSamples
  yR : -(R + 1) ≤ ⌈y⌉

theorem Strolls.R0 {r : Rd} {R : Int} {y : ℚ} (h : Strolls r R y) : 0 < R := by
  have : (0 : ℚ) < R := lt_of_lt_of_le (by have := h.rate0; linarith) h.rateR
  exact_mod_cast this

theorem Strolls.atEnd {r : Rd} {R : Int} {y : ℚ} (h : Strolls r R y) : r.atEnd = decide (⌈y⌉ < 0) := by
  have hR := h.R0
  have hn := h.plain.nch
  have key : (r.header + ⌈y⌉ * r.nch < r.header) ↔ ⌈y⌉ < 0 := by
    constructor
    · intro hlt
      by_contra hcc
      have := mul_nonneg (not_lt.1 hcc) (le_of_lt hn)
      omega
    · intro hlt
      have := mul_neg_of_neg_of_pos hlt hn
      omega
  have hnr : ¬ r.rate ≥ 0 := not_le.2 h.rate0
  unfold Rd.atEnd
  simp only [h.plain.dual, Bool.false_eq_true, if_false, if_neg hnr, h.pos]
  split
  · congr 1; exact propext key
  · rename_i hps
    have h0 := h.low.resolve_left hps
    have f := frame_fits h.header0 (le_of_lt hn) (le_refl 0) (show 0 ≤ r.fileSamples + R + 1 by have := h.F0; omega) h.fits
    have hp : r.posOf r.loopStart = r.header := by
      rw [h0, posOf_eq ⟨by have := h.header0; omega, f.2⟩]; ring
    rw [hp]
    congr 1; exact propext key

theorem Strolls.step {fp : Fp} (hfp : Representable fp) {r : Rd} {R : Int} {y : ℚ} (h : Strolls r R y) (hy : 0 ≤ ⌈y⌉) :
    ∃ r2, stepOn fp r = .ok r2 ∧ Strolls r2 R (⌈y⌉ + fp.d.rnd (y - ⌈y⌉ - -r.rate)) ∧ r2.rate = r.rate ∧ SameConf r r2 := by
  have hR := h.R0
  have hn := h.plain.nch
  have hcr := ceil_rest y
  have hrem1 : |r.rem| < 1 := by rw [h.rem, abs_of_nonpos hcr.1]; linarith
  have hF := h.yF
  have hr0 : r.rate ≤ 0 := le_of_lt h.rate0
  obtain ⟨δ, f, e, k1, k2, k3, k4, k5⟩ := stepOn_any fp hfp (R := R) (by rw [abs_of_nonpos hr0]; exact h.rateR) h.R30 (by rw [h.rem]; exact h.flt) hrem1 h.plain.cfOn (by
    intro δ g1 _ g2
    have g2 := g2 hr0
    rw [abs_of_nonpos g2] at g1
    have f1 := frame_fits' h.header0 (le_of_lt hn) (show -(r.fileSamples + R + 1) ≤ δ by omega) (show δ ≤ r.fileSamples + R + 1 by omega) h.fits
    have f2 := frame_fits' h.header0 (le_of_lt hn) (show -(r.fileSamples + R + 1) ≤ ⌈y⌉ + δ by omega) (show ⌈y⌉ + δ ≤ r.fileSamples + R + 1 by omega) h.fits
    have e2 : r.pos1 + δ * r.nch = r.header + (⌈y⌉ + δ) * r.nch := by rw [h.pos]; ring
    have hH := h.header0
    rw [e2]
    unfold InI32
    constructor <;> constructor <;> omega)
  have k3 := k3 hr0
  obtain ⟨p2, e'⟩ := stepOn_inv e
  have hnx := driftBack_next fp hfp (ρ := -r.rate) (by linarith) h.flt
  rw [sub_neg_eq_add, ← h.rem] at hnx ⊢
  set s := fp.d.rnd (r.rem + r.rate) with hs
  have hff := frac_isFloat (hfp (r.rem + r.rate))
  rw [← hs, trunc_of_nonpos hnx.1] at hff
  have e1 : f = s - ⌈s⌉ := by
    have := congrArg Rd.rem e'
    simp only at this
    rw [trunc_of_nonpos hnx.1, fp.d.exact _ hff] at this
    exact this
  have e2 : δ = ⌈s⌉ := by
    have := congrArg Rd.pos1 e'
    simp only at this
    rw [trunc_of_nonpos hnx.1] at this
    exact mul_right_cancel₀ (ne_of_gt hn) (show δ * r.nch = ⌈s⌉ * r.nch by omega)
  have f1 : ⌈(⌈y⌉ : ℚ) + s⌉ = ⌈y⌉ + δ := by rw [Int.ceil_intCast_add, e2]
  rw [abs_of_nonpos k3] at k1
  refine ⟨_, e, ⟨⟨h.plain.dual, h.plain.interp, h.plain.cfOn, h.plain.nch⟩, h.loop, h.rate0, h.rateR, h.R30, ?_, ?_, hnx.2.2, h.header0, h.low, h.F0, h.fits,
    by rw [f1]; simp only; omega, by rw [f1]; omega⟩, rfl, ⟨rfl, rfl, rfl, rfl, rfl, rfl, rfl, rfl, rfl, rfl, rfl, rfl, rfl, rfl⟩⟩
  · simp only
    rw [f1, h.pos]; ring
  · simp only
    rw [f1, e1, e2]; push_cast; ring

/-- A reader that has delivered `t` frames backwards. -/
def Strolling (fp : Fp) (R : Int) (F : Nat) (x ρ : ℚ) (t : Nat) (r : Rd) : Prop := Strolls r R (driftBackAt fp x ρ t) ∧ r.rate = -ρ ∧ r.fileSamples = F

theorem stroll_turns (hfp : Representable fp) {R : Int} {F : Nat} {x ρ : ℚ} (hρ : 0 ≤ ρ) (hx : IsFloat 53 (-1074) (x - ⌈x⌉)) (hlen : H + F * nch ≤ data.length) :
    Turns fp data H nch (driftBackPath fp x ρ) (Strolling fp R F x ρ) where
  ends := by
    intro t h
    unfold driftBackPath at h ⊢
    split at h
    · cases h
    · rename_i hlt
      rw [if_neg]
      have := driftBack_mono fp hfp hρ hx t
      omega
  dual h := h.1.plain.dual
  stop {t r} h e := by
    refine ⟨h.1.plain, ?_, h.1.loop⟩
    rw [h.1.atEnd]
    unfold driftBackPath at e
    split at e
    · cases e
    · rename_i hlt; simpa using hlt
  go {t r i} h hc hH e := by
    obtain ⟨hA, hrate, hF⟩ := h
    unfold driftBackPath at e
    split at e
    · rename_i hlt
      have hi := Option.some.inj e
      have ei : (⌈driftBackAt fp x ρ t⌉ : Int) = (i : Int) := by omega
      obtain ⟨r2, k1, k2, k3, k4⟩ := hA.step hfp hlt
      have hn := hA.plain.nch
      have hR := hA.R0
      have hyF := hA.yF
      have f := frame_fits hA.header0 (le_of_lt hn) (show 0 ≤ (i : Int) + 1 by omega) (show (i : Int) + 1 ≤ r.fileSamples + R + 1 by omega) hA.fits
      rw [hc] at hn
      rw [hH, hc] at f
      have f2 : ((i : Int) + 1) * nch ≤ F * nch := mul_le_mul_of_nonneg_right (by omega) (le_of_lt hn)
      refine ⟨r, r2, Or.inl ⟨by rw [hA.atEnd]; simpa using hlt, rfl⟩, hA.plain, SameConf.refl r, by rw [← ei, hA.pos, hc, hH], ?_, f.2, k1, k4, ?_, by rw [k3, hrate],
        by rw [k4.fileSamples, hF]⟩
      · have : ((H + (i + 1) * nch : Nat) : Int) ≤ data.length := by push_cast; omega
        exact_mod_cast this
      · rw [hrate, neg_neg] at k2; exact k2
    · cases e

end TVP
