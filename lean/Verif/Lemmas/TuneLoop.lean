import Verif.Lemmas.Tune

/-!
# Repeated loops at speeds of which the positions are not exact
-/

namespace TVP
open Spec

/-- The largest double below one. -/
theorem float_lt_one {f : ℚ} (h : IsFloat 53 (-1074) f) (h1 : f < 1) : f ≤ 1 - 1 / 2 ^ 53 := by
  obtain ⟨m, e, hm, he, rfl⟩ := h
  rcases lt_or_ge e 0 with h0 | h0
  · obtain ⟨k, hk⟩ : ∃ k : Nat, e = -(k : Int) := ⟨e.natAbs, by omega⟩
    have hp : (0 : ℚ) < 2 ^ k := by positivity
    have hz : (2 : ℚ) ^ e = 1 / 2 ^ k := by rw [hk, zpow_neg, zpow_natCast, one_div]
    rw [hz] at h1 ⊢
    rw [mul_one_div] at h1 ⊢
    rw [div_lt_one hp] at h1
    have h2 : m < 2 ^ k := by exact_mod_cast h1
    rcases le_total k 53 with h3 | h3
    · have h4 : (m : ℚ) ≤ 2 ^ k - 1 := by
        have : m ≤ 2 ^ k - 1 := by omega
        exact_mod_cast this
      have h5 : (2 : ℚ) ^ k ≤ 2 ^ 53 := pow_le_pow_right₀ (by norm_num) h3
      have h6 : (1 : ℚ) / 2 ^ 53 ≤ 1 / 2 ^ k := one_div_le_one_div_of_le hp h5
      calc (m : ℚ) / 2 ^ k ≤ (2 ^ k - 1) / 2 ^ k := (div_le_div_iff_of_pos_right hp).2 h4
        _ = 1 - 1 / 2 ^ k := by field_simp
        _ ≤ _ := by linarith
    · have h4 : (m : ℚ) ≤ 2 ^ 53 - 1 := by
        have := (abs_lt.1 hm).2
        have : m ≤ 2 ^ 53 - 1 := by omega
        exact_mod_cast this
      rw [div_le_iff₀ hp]
      have h5 : (2 : ℚ) ^ 53 ≤ 2 ^ k := pow_le_pow_right₀ (by norm_num) h3
      have h6 : (1 - 1 / 2 ^ 53 : ℚ) * 2 ^ 53 ≤ (1 - 1 / 2 ^ 53) * 2 ^ k := mul_le_mul_of_nonneg_left h5 (by norm_num)
      norm_num at h4 h6 ⊢
      linarith
  · obtain ⟨k, hk⟩ : ∃ k : Nat, e = (k : Int) := ⟨e.toNat, by omega⟩
    subst hk
    rw [zpow_natCast] at h1 ⊢
    have h2 : m * 2 ^ k < 1 := by exact_mod_cast h1
    have h3 : ((m * 2 ^ k : Int) : ℚ) ≤ ((0 : Int) : ℚ) := by exact_mod_cast (show m * 2 ^ k ≤ 0 by omega)
    push_cast at h3
    norm_num
    linarith

/-- Two doubles below one do not add up to two, rounded. -/
theorem rnd_two (d : Fp64) {f r : ℚ} (hf : IsFloat 53 (-1074) f) (h1 : f < 1) (hr : r ≤ 1 - 1 / 2 ^ 53) : d.rnd (f + r) < 2 := by
  have h := float_lt_one hf h1
  have hfl : IsFloat 53 (-1074) (2 - 1 / 2 ^ 52) := ⟨2 ^ 53 - 1, -52, by norm_num, by norm_num, by norm_num⟩
  have h2 := d.mono (show f + r ≤ 2 - 1 / 2 ^ 52 by norm_num at *; linarith)
  rw [d.exact _ hfl] at h2
  have : (0 : ℚ) < 1 / 2 ^ 52 := by positivity
  linarith

theorem IsFloat.neg' {f : ℚ} (h : IsFloat 53 (-1074) f) : IsFloat 53 (-1074) (-f) := by
  obtain ⟨m, e, hm, he, rfl⟩ := h
  exact ⟨-m, e, by rwa [abs_neg], he, by push_cast; ring⟩

theorem rnd_minus_two (d : Fp64) {f ρ : ℚ} (hf : IsFloat 53 (-1074) f) (h1 : -1 < f) (hr : ρ ≤ 1 - 1 / 2 ^ 53) : -2 < d.rnd (f - ρ) := by
  have h := float_lt_one hf.neg' (by linarith)
  have hfl : IsFloat 53 (-1074) (-(2 - 1 / 2 ^ 52)) := ⟨-(2 ^ 53 - 1), -52, by norm_num, by norm_num, by norm_num⟩
  have h2 := d.mono (show -(2 - 1 / 2 ^ 52) ≤ f - ρ by norm_num at *; linarith)
  rw [d.exact _ hfl] at h2
  have : (0 : ℚ) < 1 / 2 ^ 52 := by positivity
  linarith

variable {fp : Fp} {data : List Int} {H nch : Nat}

/-- One step forwards. -/
theorem amble_step (hfp : Representable fp) {r : Rd} {R : Int} {y : ℚ} (hr0 : 0 ≤ r.rate) (hrR : r.rate ≤ R) (hR30 : R ≤ 2 ^ 30) (hcf : r.cfOn = false)
    (hn : 0 < r.nch) (hrem : r.rem = Int.fract y) (hflt : IsFloat 53 (-1074) (Int.fract y))
    (hfit : ∀ δ : Int, 0 ≤ δ → δ ≤ R + 1 → InI32 (δ * r.nch) ∧ InI32 (r.pos1 + δ * r.nch)) :
    ∃ (δ : Int) (f : ℚ), stepOn fp r = .ok { r with rem := f, pos1 := r.pos1 + δ * r.nch } ∧ 0 ≤ δ ∧ δ ≤ R + 1 ∧
      ⌊(⌊y⌋ : ℚ) + fp.d.rnd (Int.fract y + r.rate)⌋ = ⌊y⌋ + δ ∧ Int.fract ((⌊y⌋ : ℚ) + fp.d.rnd (Int.fract y + r.rate)) = f ∧ IsFloat 53 (-1074) f := by
  have hf0 := Int.fract_nonneg y
  have hf1 := Int.fract_lt_one y
  have hrem1 : |r.rem| < 1 := by rw [hrem, abs_of_nonneg hf0]; exact hf1
  obtain ⟨δ, f, e, k1, k2, k3, k4, k5⟩ := stepOn_any fp hfp (R := R) (by rw [abs_of_nonneg hr0]; exact hrR) hR30 (by rw [hrem]; exact hflt) hrem1 hcf (by
    intro δ g1 g2 _
    have g2 := g2 hr0
    rw [abs_of_nonneg g2] at g1
    exact hfit δ g2 g1)
  have k2 := k2 hr0
  rw [abs_of_nonneg k2] at k1
  obtain ⟨p2, e'⟩ := stepOn_inv e
  set s := fp.d.rnd (r.rem + r.rate) with hs
  have hs0 : 0 ≤ s := by
    have h2 := fp.d.mono (show Int.fract y ≤ r.rem + r.rate by rw [hrem]; linarith)
    rw [fp.d.exact _ hflt] at h2
    exact le_trans hf0 h2
  have hff := frac_isFloat (hfp (r.rem + r.rate))
  have e1 : f = Int.fract s := by
    have := congrArg Rd.rem e'
    simp only at this
    rw [this, fp.d.exact _ hff, trunc_of_nonneg hs0]
    rfl
  have e2 : δ = ⌊s⌋ := by
    have := congrArg Rd.pos1 e'
    simp only at this
    rw [trunc_of_nonneg hs0] at this
    exact mul_right_cancel₀ (ne_of_gt hn) (show δ * r.nch = ⌊s⌋ * r.nch by omega)
  rw [← hrem, ← hs]
  exact ⟨δ, f, e, k2, k1, by rw [Int.floor_intCast_add, e2], by rw [Int.fract_intCast_add, e1], k4⟩

/-! ## Round and round -/

/-- Where the player really is after `t` frames of a loop. -/
def driftLoopAt (fp : Fp) (A E : Int) (x r : ℚ) : Nat → ℚ
  | 0 => x
  | t + 1 =>
    let y := (⌊driftLoopAt fp A E x r t⌋ : ℚ) + fp.d.rnd (Int.fract (driftLoopAt fp A E x r t) + r)
    if E ≤ ⌊y⌋ then A + Int.fract y else y

def driftLoopPath (fp : Fp) (A E : Int) (x r : ℚ) (t : Nat) : Option Nat := some ⌊driftLoopAt fp A E x r t⌋.toNat

/-- Where it is on a tape on which the loop is written out. -/
theorem driftLoop_near (hfp : Representable fp) {A E : Int} (hA : 0 ≤ A) (hAE : A < E) {x r : ℚ} (h0 : 0 ≤ r) (hr : r ≤ 1 - 1 / 2 ^ 53)
    (hx : IsFloat 53 (-1074) (Int.fract x)) (hx0 : 0 ≤ ⌊x⌋) (hxE : ⌊x⌋ < E) : ∀ t : Nat,
    IsFloat 53 (-1074) (Int.fract (driftLoopAt fp A E x r t)) ∧ 0 ≤ ⌊driftLoopAt fp A E x r t⌋ ∧ ⌊driftLoopAt fp A E x r t⌋ < E ∧
      ∃ n : Nat, (n = 0 ∨ A ≤ ⌊driftLoopAt fp A E x r t⌋) ∧ |driftLoopAt fp A E x r t + n * (E - A) - (x + t * r)| ≤ t * (2 ^ 1 / 2 ^ 53)
  | 0 => ⟨hx, hx0, hxE, 0, Or.inl rfl, by simp [driftLoopAt]⟩
  | t + 1 => by
    obtain ⟨ih1, ih2, ih3, n, ih4, ih5⟩ := driftLoop_near hfp hA hAE h0 hr hx hx0 hxE t
    unfold driftLoopAt
    generalize driftLoopAt fp A E x r t = y at *
    have hf0 := Int.fract_nonneg y
    have hf1 := Int.fract_lt_one y
    have hs0 : 0 ≤ fp.d.rnd (Int.fract y + r) := by
      have h2 := fp.d.mono (show Int.fract y ≤ Int.fract y + r by linarith)
      rw [fp.d.exact _ ih1] at h2
      exact le_trans hf0 h2
    have hs2 := rnd_two fp.d ih1 hf1 hr
    have hnear := rnd_near fp.d (drift_sum (y := y) (k := 1) h0 (by have : (0 : ℚ) < 1 / 2 ^ 53 := by positivity
                                                                    norm_num; linarith))
    have h4 := frac_isFloat (hfp (Int.fract y + r))
    rw [trunc_of_nonneg hs0] at h4
    set s := fp.d.rnd (Int.fract y + r) with hs
    have hfr : Int.fract ((⌊y⌋ : ℚ) + s) = Int.fract s := Int.fract_intCast_add _ _
    have hfl : ⌊(⌊y⌋ : ℚ) + s⌋ = ⌊y⌋ + ⌊s⌋ := Int.floor_intCast_add _ _
    have hs0' := Int.floor_nonneg.2 hs0
    have hs2' : ⌊s⌋ < 2 := Int.floor_lt.2 (by push_cast; exact hs2)
    have e := Int.floor_add_fract y
    have e2 := Int.floor_add_fract s
    rw [abs_le] at ih5 hnear
    simp only [hfl, hfr]
    split
    · rename_i hE
      have hyE : ⌊y⌋ + ⌊s⌋ = E := by omega
      have hyE' : (⌊y⌋ : ℚ) + ⌊s⌋ = E := by exact_mod_cast hyE
      refine ⟨by rw [Int.fract_intCast_add, Int.fract_fract]; exact h4, by rw [floor_add_fract]; exact hA, by rw [floor_add_fract]; exact hAE, n + 1,
        Or.inr (by rw [floor_add_fract]), ?_⟩
      rw [abs_le]
      push_cast
      constructor <;> linarith [ih5.1, ih5.2, hnear.1, hnear.2]
    · rename_i hE
      refine ⟨by rw [hfr]; exact h4, by rw [hfl]; omega, by rw [hfl]; omega, n, ?_, ?_⟩
      · rw [hfl]
        rcases ih4 with h | h
        · exact Or.inl h
        · exact Or.inr (by omega)
      · rw [abs_le]
        push_cast
        constructor <;> linarith [ih5.1, ih5.2, hnear.1, hnear.2]

theorem driftLoopPath_inTune (hfp : Representable fp) {A E : Int} (hA : 0 ≤ A) (hAE : A < E) {x r : ℚ} (h0 : 0 ≤ r) (hr : r ≤ 1 - 1 / 2 ^ 53)
    (hx : IsFloat 53 (-1074) (Int.fract x)) (hx0 : 0 ≤ ⌊x⌋) (hxE : ⌊x⌋ < E) : InTuneLoop (driftLoopPath fp A E x r) x r (2 ^ 1 / 2 ^ 53) A E := by
  intro t
  obtain ⟨-, h2, h3, n, h4, h5⟩ := driftLoop_near (fp := fp) hfp hA hAE h0 hr hx hx0 hxE t
  have f1 := Int.floor_le (driftLoopAt fp A E x r t)
  have f2 := Int.lt_floor_add_one (driftLoopAt fp A E x r t)
  have e : ((⌊driftLoopAt fp A E x r t⌋.toNat : Nat) : Int) = ⌊driftLoopAt fp A E x r t⌋ := Int.toNat_of_nonneg h2
  have e' : ((⌊driftLoopAt fp A E x r t⌋.toNat : Nat) : ℚ) = ⌊driftLoopAt fp A E x r t⌋ := by exact_mod_cast e
  rw [abs_le] at h5
  refine ⟨_, n, rfl, by rw [e]; exact h3, by rw [e]; exact h4, ?_, ?_⟩
  · rw [e']; linarith [h5.2]
  · rw [e']; linarith [h5.1]

/-- A reader repeating a loop forwards, at position `y`, possibly just behind the end. -/
structure LoopAmble (A E R : Int) (v y : ℚ) (r : Rd) : Prop where
  looping : Looping .repeat A E ⌊y⌋ r
  rate : r.rate = v
  rem : r.rem = Int.fract y
  flt : IsFloat 53 (-1074) (Int.fract y)
  y0 : 0 ≤ ⌊y⌋
  yE : ⌊y⌋ ≤ E + R

/-- A reader that has delivered `t` frames of the loop. -/
def LoopAmbling (fp : Fp) (A E R : Int) (x v : ℚ) (t : Nat) (r : Rd) : Prop :=
  ∃ y, LoopAmble A E R v y r ∧ driftLoopAt fp A E x v t = if E ≤ ⌊y⌋ then A + Int.fract y else y

theorem loop_amble_turns (hfp : Representable fp) {A E : Int} {R : Int} {x v : ℚ} (hA : 0 ≤ A) (hAE : A < E) (hv0 : 0 ≤ v) (hvR : v ≤ R) (hR30 : R ≤ 2 ^ 30)
    (hn : 1 ≤ nch) (hfit : (H : Int) + nch * (E + R + 1) ≤ 2147483647) (hlen : H + E * nch ≤ data.length) :
    Turns fp data H nch (driftLoopPath fp A E x v) (LoopAmbling fp A E R x v) where
  ends := fun _ h => nomatch h
  dual h := by obtain ⟨y, h, -⟩ := h; exact h.looping.at_.plain.dual
  stop h e := nomatch e
  go {t r i} h hc hH e := by
    obtain ⟨y, h, hy⟩ := h
    have hu := h.looping.at_
    have hR0 : 0 ≤ R := by
      have : (0 : ℚ) ≤ R := le_trans hv0 hvR
      exact_mod_cast this
    have hat := hu.atEnd_fwd (by rw [h.looping.loop]; simp) (by rw [h.rate]; exact hv0)
    rw [h.looping.lf] at hat
    -- where the frame is read
    obtain ⟨r1, z, s1, s2, s3, s4, s5, s6⟩ : ∃ (r1 : Rd) (z : ℚ), Settles r r1 ∧ SameConf r r1 ∧ LoopAmble A E R v z r1 ∧ driftLoopAt fp A E x v t = z ∧
        ⌊z⌋ < E ∧ 0 ≤ ⌊z⌋ := by
      by_cases hlt : E ≤ ⌊y⌋
      · rw [if_pos hlt] at hy
        have hps := hu.posOf (x := r.loopStart) hu.A0 (le_of_lt hu.AE)
        have hu' : ULoop { r with cfOn := false, pos1 := r.posOf r.loopStart } ⌊(A : ℚ) + Int.fract y⌋ := by
          rw [floor_add_fract]
          exact ⟨⟨hu.plain.dual, hu.plain.interp, rfl, hu.plain.nch⟩, by rw [← h.looping.ls]; exact hps, hu.header0, hu.A0, hu.AE, hu.fits⟩
        refine ⟨{ r with cfOn := false, pos1 := r.posOf r.loopStart }, (A : ℚ) + Int.fract y, Or.inr ⟨by rw [hat]; simpa using hlt, ?_, ?_⟩,
          ⟨rfl, rfl, rfl, rfl, rfl, rfl, rfl, rfl, rfl, rfl, rfl, rfl, rfl, rfl⟩, ⟨⟨hu', h.looping.loop, h.looping.ls, h.looping.lf⟩, h.rate, ?_, ?_, ?_, ?_⟩,
          hy, ?_, ?_⟩
        · unfold wrapAround
          simp only [h.looping.loop, ge_iff_le, h.rate, hv0, if_true]; rfl
        · rw [hu'.atEnd_fwd (by simp only; rw [h.looping.loop]; simp) (by simp only; rw [h.rate]; exact hv0), floor_add_fract]
          simp only [h.looping.lf]
          simpa using hAE
        · simp only [h.rem, Int.fract_intCast_add, Int.fract_fract]
        · rw [Int.fract_intCast_add, Int.fract_fract]; exact h.flt
        · rw [floor_add_fract]; exact hA
        · rw [floor_add_fract]; omega
        · rw [floor_add_fract]; exact hAE
        · rw [floor_add_fract]; exact hA
      · rw [if_neg hlt] at hy
        exact ⟨r, y, Or.inl ⟨by rw [hat]; simpa using hlt, rfl⟩, SameConf.refl r, h, hy, by omega, h.y0⟩
    have hu1 := s3.looping.at_
    have hi : i = ⌊z⌋.toNat := by
      unfold driftLoopPath at e
      rw [s4] at e
      exact (Option.some.inj e).symm
    have ei : ((i : Nat) : Int) = ⌊z⌋ := by rw [hi]; exact Int.toNat_of_nonneg s6
    have hc1 : r1.nch = nch := s2.nch.trans hc
    have hH1 : r1.header = H := s2.header.trans hH
    have hn0 : (0 : Int) < nch := by exact_mod_cast hn
    have hH0 : (0 : Int) ≤ H := Int.natCast_nonneg _
    obtain ⟨δ, f, hst, d0, dR, f1, f2, f3⟩ := amble_step hfp (r := r1) (R := R) (y := z) (by rw [s3.rate]; exact hv0) (by rw [s3.rate]; exact hvR) hR30 hu1.plain.cfOn hu1.plain.nch s3.rem s3.flt (by
      intro δ g1 g2
      have f1 := frame_fits hH0 (le_of_lt hn0) g1 (show δ ≤ E + R + 1 by omega) hfit
      have f2 := frame_fits hH0 (le_of_lt hn0) (show 0 ≤ ⌊z⌋ + δ by omega) (show ⌊z⌋ + δ ≤ E + R + 1 by omega) hfit
      have e2 : r1.pos1 + δ * r1.nch = H + (⌊z⌋ + δ) * nch := by rw [hu1.pos, hH1, hc1]; ring
      rw [e2, hc1]
      unfold InI32
      constructor <;> constructor <;> omega)
    rw [s3.rate] at f1 f2
    have f5 := frame_fits hH0 (le_of_lt hn0) (show 0 ≤ ⌊z⌋ + 1 by omega) (show ⌊z⌋ + 1 ≤ E + R + 1 by omega) hfit
    have f4 : (⌊z⌋ + 1) * nch ≤ E * nch := mul_le_mul_of_nonneg_right (by omega) (le_of_lt hn0)
    refine ⟨r1, _, s1, hu1.plain, s2, by rw [hu1.pos, hH1, hc1, ei], ?_, by rw [ei]; exact f5.2, hst,
      s2.trans ⟨rfl, rfl, rfl, rfl, rfl, rfl, rfl, rfl, rfl, rfl, rfl, rfl, rfl, rfl⟩, (⌊z⌋ : ℚ) + fp.d.rnd (Int.fract z + v),
      ⟨⟨⟨⟨hu1.plain.dual, hu1.plain.interp, hu1.plain.cfOn, hu1.plain.nch⟩, ?_,
        hu1.header0, hu1.A0, hu1.AE, hu1.fits⟩, s3.looping.loop, s3.looping.ls, s3.looping.lf⟩, s3.rate, f2.symm, by rw [f2]; exact f3, by rw [f1]; omega, by rw [f1]; omega⟩, ?_⟩
    · have : ((H + (i + 1) * nch : Nat) : Int) ≤ data.length := by push_cast; rw [ei]; omega
      exact_mod_cast this
    · simp only; rw [f1, hu1.pos]; ring
    · show (let y := (⌊driftLoopAt fp A E x v t⌋ : ℚ) + fp.d.rnd (Int.fract (driftLoopAt fp A E x v t) + v); if E ≤ ⌊y⌋ then (A : ℚ) + Int.fract y else y) = _
      simp only [s4]

/-! ## Round and round backwards -/

/-- One step backwards. -/
theorem stroll_step (hfp : Representable fp) {r : Rd} {R : Int} {y ρ : ℚ} (hr : r.rate = -ρ) (hρ : 0 ≤ ρ) (hrR : ρ ≤ R) (hR30 : R ≤ 2 ^ 30) (hcf : r.cfOn = false)
    (hn : 0 < r.nch) (hrem : r.rem = y - ⌈y⌉) (hflt : IsFloat 53 (-1074) (y - ⌈y⌉))
    (hfit : ∀ δ : Int, δ ≤ 0 → -(R + 1) ≤ δ → InI32 (δ * r.nch) ∧ InI32 (r.pos1 + δ * r.nch)) :
    ∃ (δ : Int) (f : ℚ), stepOn fp r = .ok { r with rem := f, pos1 := r.pos1 + δ * r.nch } ∧ δ ≤ 0 ∧ -(R + 1) ≤ δ ∧
      ⌈(⌈y⌉ : ℚ) + fp.d.rnd (y - ⌈y⌉ - ρ)⌉ = ⌈y⌉ + δ ∧ (⌈y⌉ : ℚ) + fp.d.rnd (y - ⌈y⌉ - ρ) - (⌈y⌉ + δ : Int) = f ∧ IsFloat 53 (-1074) f := by
  have hcr := ceil_rest y
  have hrem1 : |r.rem| < 1 := by rw [hrem, abs_of_nonpos hcr.1]; linarith
  have hr0 : r.rate ≤ 0 := by rw [hr]; linarith
  obtain ⟨δ, f, e, k1, k2, k3, k4, k5⟩ := stepOn_any fp hfp (R := R) (by rw [abs_of_nonpos hr0, hr, neg_neg]; exact hrR) hR30 (by rw [hrem]; exact hflt) hrem1 hcf (by
    intro δ g1 _ g2
    have g2 := g2 hr0
    rw [abs_of_nonpos g2] at g1
    exact hfit δ g2 (by omega))
  have k3 := k3 hr0
  rw [abs_of_nonpos k3] at k1
  obtain ⟨p2, e'⟩ := stepOn_inv e
  have hnx := driftBack_next fp hfp hρ hflt
  have hsum : y - ⌈y⌉ - ρ = r.rem + r.rate := by rw [hrem, hr]; ring
  rw [hsum] at hnx ⊢
  set s := fp.d.rnd (r.rem + r.rate) with hs
  have hff := frac_isFloat (hfp (r.rem + r.rate))
  rw [← hs, trunc_of_nonpos hnx.1] at hff
  have e1 : f = s - ⌈s⌉ := by
    have := congrArg Rd.rem e'
    simp only at this
    rw [trunc_of_nonpos hnx.1, fp.d.exact _ hff] at this
    exact this
  have e2 : δ = ⌈s⌉ := by
    have := congrArg Rd.pos1 e'
    simp only at this
    rw [trunc_of_nonpos hnx.1] at this
    exact mul_right_cancel₀ (ne_of_gt hn) (show δ * r.nch = ⌈s⌉ * r.nch by omega)
  exact ⟨δ, f, e, k3, by omega, by rw [Int.ceil_intCast_add, e2], by rw [e1, e2]; push_cast; ring, k4⟩

/-- Where the player really is after `t` frames of a loop, backwards. -/
def driftLoopBackAt (fp : Fp) (A Z : Int) (x ρ : ℚ) : Nat → ℚ
  | 0 => x
  | t + 1 =>
    let y := (⌈driftLoopBackAt fp A Z x ρ t⌉ : ℚ) + fp.d.rnd (driftLoopBackAt fp A Z x ρ t - ⌈driftLoopBackAt fp A Z x ρ t⌉ - ρ)
    if ⌈y⌉ < A then Z + (y - ⌈y⌉) else y

def driftLoopBackPath (fp : Fp) (A Z : Int) (x ρ : ℚ) (t : Nat) : Option Nat := some ⌈driftLoopBackAt fp A Z x ρ t⌉.toNat

theorem driftLoopBack_near (hfp : Representable fp) {A Z : Int} (hAZ : A ≤ Z) {x ρ : ℚ} (h0 : 0 ≤ ρ) (hr : ρ ≤ 1 - 1 / 2 ^ 53)
    (hx : IsFloat 53 (-1074) (x - ⌈x⌉)) (hxA : A ≤ ⌈x⌉) : ∀ t : Nat,
    IsFloat 53 (-1074) (driftLoopBackAt fp A Z x ρ t - ⌈driftLoopBackAt fp A Z x ρ t⌉) ∧ A ≤ ⌈driftLoopBackAt fp A Z x ρ t⌉ ∧
      (⌈driftLoopBackAt fp A Z x ρ t⌉ ≤ Z ∨ ⌈driftLoopBackAt fp A Z x ρ t⌉ ≤ ⌈x⌉) ∧
      ∃ n : Nat, (n = 0 ∨ ⌈driftLoopBackAt fp A Z x ρ t⌉ ≤ Z) ∧ |driftLoopBackAt fp A Z x ρ t - n * (Z + 1 - A) - (x - t * ρ)| ≤ t * (2 ^ 1 / 2 ^ 53)
  | 0 => ⟨hx, hxA, Or.inr (le_refl _), 0, Or.inl rfl, by simp [driftLoopBackAt]⟩
  | t + 1 => by
    obtain ⟨ih1, ih2, ih3, n, ih4, ih5⟩ := driftLoopBack_near hfp hAZ h0 hr hx hxA t
    unfold driftLoopBackAt
    generalize driftLoopBackAt fp A Z x ρ t = y at *
    obtain ⟨c0, c1⟩ := ceil_rest y
    obtain ⟨hs0, hs1, h4⟩ := driftBack_next fp hfp h0 ih1
    have hs2 := rnd_minus_two fp.d ih1 c1 hr
    have hnear := rnd_near fp.d (driftBack_sum (y := y) (k := 1) h0 (by have : (0 : ℚ) < 1 / 2 ^ 53 := by positivity
                                                                        norm_num; linarith))
    set s := fp.d.rnd (y - ⌈y⌉ - ρ) with hs
    have hcl : ⌈(⌈y⌉ : ℚ) + s⌉ = ⌈y⌉ + ⌈s⌉ := Int.ceil_intCast_add _ _
    have hs2' : -2 < ⌈s⌉ := Int.lt_ceil.2 (by push_cast; exact hs2)
    rw [abs_le] at ih5 hnear
    simp only [hcl]
    split
    · rename_i hE
      have hyA : ⌈y⌉ + ⌈s⌉ = A - 1 := by omega
      have hyA' : (⌈y⌉ : ℚ) + ⌈s⌉ = A - 1 := by exact_mod_cast hyA
      have hz : ∀ w : ℚ, w - ⌈(⌈y⌉ : ℚ) + s⌉ = w - ((⌈y⌉ + ⌈s⌉ : Int) : ℚ) := fun w => by rw [hcl]
      rw [hz] at h4
      have hceil : ⌈(Z : ℚ) + ((⌈y⌉ : ℚ) + s - ((⌈y⌉ + ⌈s⌉ : Int) : ℚ))⌉ = Z := by
        rw [← hcl]; exact ceil_add_sub Z _
      refine ⟨by rw [hceil]; convert h4 using 1; ring, by rw [hceil]; exact hAZ, Or.inl (by rw [hceil]), n + 1, Or.inr (by rw [hceil]), ?_⟩
      rw [abs_le]
      push_cast
      constructor <;> linarith [ih5.1, ih5.2, hnear.1, hnear.2]
    · rename_i hE
      refine ⟨h4, by rw [hcl]; omega, by rw [hcl]; omega, n, by rw [hcl]; omega, ?_⟩
      rw [abs_le]
      push_cast
      constructor <;> linarith [ih5.1, ih5.2, hnear.1, hnear.2]

theorem driftLoopBackPath_inTune (hfp : Representable fp) {A Z : Int} (hA : 0 ≤ A) (hAZ : A ≤ Z) {x ρ : ℚ} (h0 : 0 ≤ ρ) (hr : ρ ≤ 1 - 1 / 2 ^ 53)
    (hx : IsFloat 53 (-1074) (x - ⌈x⌉)) (hxA : A ≤ ⌈x⌉) : InTuneLoopBack (driftLoopBackPath fp A Z x ρ) x ρ (2 ^ 1 / 2 ^ 53) A Z := by
  intro t
  obtain ⟨-, h2, -, n, h4, h5⟩ := driftLoopBack_near (fp := fp) hfp hAZ h0 hr hx hxA t
  have f1 := Int.le_ceil (driftLoopBackAt fp A Z x ρ t)
  have f2 := Int.ceil_lt_add_one (driftLoopBackAt fp A Z x ρ t)
  have e : ((⌈driftLoopBackAt fp A Z x ρ t⌉.toNat : Nat) : Int) = ⌈driftLoopBackAt fp A Z x ρ t⌉ := Int.toNat_of_nonneg (by omega)
  have e' : ((⌈driftLoopBackAt fp A Z x ρ t⌉.toNat : Nat) : ℚ) = ⌈driftLoopBackAt fp A Z x ρ t⌉ := by exact_mod_cast e
  rw [abs_le] at h5
  refine ⟨_, n, rfl, by rw [e]; exact h2, by rw [e]; exact h4, ?_, ?_⟩
  · rw [e']; linarith [h5.2]
  · rw [e']; linarith [h5.1]

/-- A reader repeating a loop backwards, at position `y`, possibly just before the start; `M` is the last frame it can be at. -/
structure LoopStroll (A E M R : Int) (ρ y : ℚ) (r : Rd) : Prop where
  looping : Looping .repeat A E ⌈y⌉ r
  low : r.playStart ≠ .sample ∨ r.loopStart = 0
  rate : r.rate = -ρ
  rem : r.rem = y - ⌈y⌉
  flt : IsFloat 53 (-1074) (y - ⌈y⌉)
  yM : ⌈y⌉ ≤ M
  yA : A - R - 1 ≤ ⌈y⌉

/-- A reader that has delivered `t` frames of the loop, backwards. -/
def LoopStrolling (fp : Fp) (A E M back R : Int) (x ρ : ℚ) (t : Nat) (r : Rd) : Prop :=
  ∃ y, LoopStroll A E M R ρ y r ∧ driftLoopBackAt fp A (E - back) x ρ t = if ⌈y⌉ < A then ((E - back : Int) : ℚ) + (y - ⌈y⌉) else y

theorem loop_stroll_turns (hfp : Representable fp) {A E M : Int} {R : Int} {x ρ : ℚ} (hA : 0 ≤ A) (hn : 1 ≤ nch) (hAE : A + nch ≤ E) (hEM : E ≤ M + 1) (hρ : 0 < ρ)
    (hρR : ρ ≤ R) (hR30 : R ≤ 2 ^ 30) (hfit : (H : Int) + nch * (M + R + 2) ≤ 2147483647) (hlen : H + (M + 1) * nch ≤ data.length) :
    Turns fp data H nch (driftLoopBackPath fp A (E - nch) x ρ) (LoopStrolling fp A E M nch R x ρ) where
  ends := fun _ h => nomatch h
  dual h := by obtain ⟨y, h, -⟩ := h; exact h.looping.at_.plain.dual
  stop h e := nomatch e
  go {t r i} h hc hH e := by
    obtain ⟨y, h, hy⟩ := h
    have hu := h.looping.at_
    have hR0 : 0 < R := by
      have : (0 : ℚ) < R := lt_of_lt_of_le hρ hρR
      exact_mod_cast this
    have hn0 : (0 : Int) < nch := by exact_mod_cast hn
    have hneg : r.rate < 0 := by rw [h.rate]; linarith
    have hat := hu.atEnd_rev h.low hneg
    rw [h.looping.ls] at hat
    -- where the frame is read
    obtain ⟨r1, z, s1, s2, s3, s4, s5⟩ : ∃ (r1 : Rd) (z : ℚ), Settles r r1 ∧ SameConf r r1 ∧ LoopStroll A E M R ρ z r1 ∧ driftLoopBackAt fp A (E - nch) x ρ t = z ∧
        A ≤ ⌈z⌉ := by
      by_cases hlt : ⌈y⌉ < A
      · rw [if_pos hlt] at hy
        have hps := hu.posOf (x := r.loopFinish - r.nch) (by rw [h.looping.lf, hc]; omega) (by rw [hc]; omega)
        have hu' : ULoop { r with cfOn := false, pos1 := r.posOf (r.loopFinish - r.nch) } ⌈((E - nch : Int) : ℚ) + (y - ⌈y⌉)⌉ := by
          rw [ceil_add_sub]
          refine ⟨⟨hu.plain.dual, hu.plain.interp, rfl, hu.plain.nch⟩, ?_, hu.header0, hu.A0, hu.AE, hu.fits⟩
          rw [← h.looping.lf, ← hc]; exact hps
        refine ⟨{ r with cfOn := false, pos1 := r.posOf (r.loopFinish - r.nch) }, ((E - nch : Int) : ℚ) + (y - ⌈y⌉), Or.inr ⟨by rw [hat]; simpa using hlt, ?_, ?_⟩,
          ⟨rfl, rfl, rfl, rfl, rfl, rfl, rfl, rfl, rfl, rfl, rfl, rfl, rfl, rfl⟩, ⟨⟨hu', h.looping.loop, h.looping.ls, h.looping.lf⟩, h.low, h.rate, ?_, ?_, ?_, ?_⟩,
          hy, ?_⟩
        · unfold wrapAround
          simp only [h.looping.loop, ge_iff_le, if_neg (not_le.2 hneg)]; rfl
        · rw [hu'.atEnd_rev h.low hneg, ceil_add_sub]
          simp only [h.looping.ls, decide_eq_false_iff_not]
          omega
        · simp only [h.rem, ceil_add_sub]; ring
        · rw [ceil_add_sub, add_sub_cancel_left]; exact h.flt
        · rw [ceil_add_sub]; omega
        · rw [ceil_add_sub]; omega
        · rw [ceil_add_sub]; omega
      · rw [if_neg hlt] at hy
        exact ⟨r, y, Or.inl ⟨by rw [hat]; simpa using hlt, rfl⟩, SameConf.refl r, h, hy, by omega⟩
    have hu1 := s3.looping.at_
    have hi : i = ⌈z⌉.toNat := by
      unfold driftLoopBackPath at e
      rw [s4] at e
      exact (Option.some.inj e).symm
    have ei : ((i : Nat) : Int) = ⌈z⌉ := by rw [hi]; exact Int.toNat_of_nonneg (by omega)
    have hc1 : r1.nch = nch := s2.nch.trans hc
    have hH1 : r1.header = H := s2.header.trans hH
    have hM := s3.yM
    have hH0 : (0 : Int) ≤ H := Int.natCast_nonneg _
    obtain ⟨δ, f, hst, d0, dR, f1, f2, f3⟩ := stroll_step hfp (r := r1) (R := R) (y := z) s3.rate (le_of_lt hρ) hρR hR30 hu1.plain.cfOn hu1.plain.nch s3.rem s3.flt (by
      intro δ g1 g2
      have f1 := frame_fits' hH0 (le_of_lt hn0) (show -(M + R + 2) ≤ δ by omega) (show δ ≤ M + R + 2 by omega) hfit
      have f2 := frame_fits' hH0 (le_of_lt hn0) (show -(M + R + 2) ≤ ⌈z⌉ + δ by omega) (show ⌈z⌉ + δ ≤ M + R + 2 by omega) hfit
      have e2 : r1.pos1 + δ * r1.nch = H + (⌈z⌉ + δ) * nch := by rw [hu1.pos, hH1, hc1]; ring
      rw [e2, hc1]
      unfold InI32
      constructor <;> constructor <;> omega)
    have f5 := frame_fits hH0 (le_of_lt hn0) (show 0 ≤ ⌈z⌉ + 1 by omega) (show ⌈z⌉ + 1 ≤ M + R + 2 by omega) hfit
    have f4 : (⌈z⌉ + 1) * nch ≤ (M + 1) * nch := mul_le_mul_of_nonneg_right (by omega) (le_of_lt hn0)
    rw [← f1] at f2
    refine ⟨r1, _, s1, hu1.plain, s2, by rw [hu1.pos, hH1, hc1, ei], ?_, by rw [ei]; exact f5.2, hst,
      s2.trans ⟨rfl, rfl, rfl, rfl, rfl, rfl, rfl, rfl, rfl, rfl, rfl, rfl, rfl, rfl⟩, (⌈z⌉ : ℚ) + fp.d.rnd (z - ⌈z⌉ - ρ),
      ⟨⟨⟨⟨hu1.plain.dual, hu1.plain.interp, hu1.plain.cfOn, hu1.plain.nch⟩, ?_,
        hu1.header0, hu1.A0, hu1.AE, hu1.fits⟩, s3.looping.loop, s3.looping.ls, s3.looping.lf⟩, s3.low, s3.rate, f2.symm, by rw [f2]; exact f3, by rw [f1]; omega, by rw [f1]; omega⟩, ?_⟩
    · have : ((H + (i + 1) * nch : Nat) : Int) ≤ data.length := by push_cast; rw [ei]; omega
      exact_mod_cast this
    · simp only; rw [f1, hu1.pos]; ring
    · show (let y := (⌈driftLoopBackAt fp A (E - nch) x ρ t⌉ : ℚ) + fp.d.rnd (driftLoopBackAt fp A (E - nch) x ρ t - ⌈driftLoopBackAt fp A (E - nch) x ρ t⌉ - ρ);
        if ⌈y⌉ < A then ((E - nch : Int) : ℚ) + (y - ⌈y⌉) else y) = _
      simp only [s4]

end TVP
