import Verif.Lemmas.Total

/-!
# Cross-fading between the two heads
-/

namespace TVP

variable {σ : Type} {S : Src σ} {I : σ → Prop} {P : Int → Prop} {val : Int → Int}

/-- The second head moves upwards. -/
def Rd.up (r : Rd) : Bool := decide (r.loopType = .pingpong) != decide (r.rate > 0)

/-- The weight is a weight while the second head is within the fade. -/
theorem fadeWeight_range (fp : Fp) {r : Rd} {d : Int} (hn : 0 < r.nch) (hn2 : r.nch ≤ 4294967295) (hD : 1 ≤ r.cfDur)
    (h0 : 0 ≤ d) (h1 : d ≤ r.cfDur * r.nch) (h2 : d ≤ 4294967295) :
    ∃ w, fadeWeight fp r d = .ok w ∧ 0 ≤ w ∧ w ≤ 1 ∧
      w = fp.d.rnd (1 - fp.d.rnd (((d / r.nch : Int) : ℚ) / r.cfDur)) := by
  have e1 : u32 d = d := u32_of_in ⟨h0, h2⟩
  have e2 : u32 r.nch = r.nch := u32_of_in ⟨by omega, hn2⟩
  have q0 : 0 ≤ d / r.nch := Int.ediv_nonneg h0 (le_of_lt hn)
  have q1 : d / r.nch ≤ r.cfDur := Int.ediv_le_of_le_mul hn h1
  have one : fp.d.rnd 1 = 1 := by simpa using fp.d.exact_int (m := 1) (by norm_num) (by norm_num) (by norm_num)
  have hDq : (0 : ℚ) < r.cfDur := by exact_mod_cast (show 0 < r.cfDur by omega)
  have x0 : (0 : ℚ) ≤ ((d / r.nch : Int) : ℚ) / r.cfDur :=
    div_nonneg (by exact_mod_cast q0) (le_of_lt hDq)
  have x1 : ((d / r.nch : Int) : ℚ) / r.cfDur ≤ 1 := by
    rw [div_le_one hDq]; exact_mod_cast q1
  have y0 := fp.d.nonneg x0
  have y1 := fp.d.mono x1
  rw [one] at y1
  have z0 := fp.d.nonneg (show 0 ≤ 1 - fp.d.rnd (((d / r.nch : Int) : ℚ) / r.cfDur) by linarith)
  have z1 := fp.d.mono (show 1 - fp.d.rnd (((d / r.nch : Int) : ℚ) / r.cfDur) ≤ 1 by linarith)
  rw [one] at z1
  refine ⟨_, ?_, z0, z1, rfl⟩
  unfold fadeWeight
  rw [if_neg (by omega), if_neg (by omega), e1, e2]

/-- The second half of `_updateCrossfade`, once the zone has been entered. -/
def fadeGo (fp : Fp) (r : Rd) : M Rd := do
  let r ← (do
    if r.up then
      if r.pos2 > r.posOf (r.loopStart + r.cfDur) then
        return { r with pos1 := r.pos2, cfOn := false }
      else
        return { r with crossfade := ← fadeWeight fp r (r.pos2 - r.s2s r.loopStart) }
    else
      if r.pos2 < r.posOf (r.loopFinish - r.cfDur) then
        return { r with pos1 := r.pos2, cfOn := false }
      else
        return { r with crossfade := ← fadeWeight fp r (r.s2s r.loopFinish - r.pos2) } : M Rd)
  if !r.cfOn && r.loopType = .pingpong then return { r with rate := -r.rate }
  else return r

theorem updateCrossfade_eq (fp : Fp) (r : Rd) :
    updateCrossfade fp r = if (fadeEnter r).cfOn then fadeGo fp (fadeEnter r) else .ok (fadeEnter r) := rfl

/-! ## The weight over any successful read -/

/-- What keeps the weight in range: a sensible loop region and, during a fade, the second head on the far side of
where it started. -/
structure FadeOk (r : Rd) : Prop where
  nch : 0 < r.nch
  header0 : 0 ≤ r.header
  A0 : 0 ≤ r.loopStart
  AE : r.loopStart ≤ r.loopFinish
  D1 : 1 ≤ r.cfDur
  fits : r.header + r.nch * (r.loopFinish + r.cfDur) ≤ 2147483647
  flt : IsFloat 53 (-1074) r.rem
  frac : |r.rem| < 1
  up : r.cfOn = true → r.up = true → r.header + r.loopStart * r.nch ≤ r.pos2
  down : r.cfOn = true → r.up = false → r.pos2 ≤ r.header + r.loopFinish * r.nch
  w0 : 0 ≤ r.crossfade
  w1 : r.crossfade ≤ 1

theorem FadeOk.pos {r : Rd} (h : FadeOk r) {x : Int} (h1 : -(r.loopFinish + r.cfDur) ≤ x)
    (h2 : x ≤ r.loopFinish + r.cfDur) : r.posOf x = r.header + x * r.nch := by
  have f := frame_fits' h.header0 (le_of_lt h.nch) h1 h2 h.fits
  exact posOf_eq ⟨by have := h.header0; omega, f.2⟩

theorem FadeOk.start {r : Rd} (h : FadeOk r) {x : Int} (h1 : 0 ≤ x)
    (h2 : x ≤ r.loopFinish + r.cfDur) : r.s2s x = r.header + x * r.nch := by
  have f := frame_fits h.header0 (le_of_lt h.nch) h1 h2 h.fits
  unfold Rd.s2s
  exact u32_of_in ⟨by have := h.header0; omega, by omega⟩

theorem FadeOk.nchBound {r : Rd} (h : FadeOk r) : r.nch ≤ 2147483647 := by
  have h1 := h.fits
  have h2 : 1 ≤ r.loopFinish + r.cfDur := by have := h.A0; have := h.AE; have := h.D1; omega
  have h3 : r.nch * 1 ≤ r.nch * (r.loopFinish + r.cfDur) := mul_le_mul_of_nonneg_left h2 (le_of_lt h.nch)
  have := h.header0
  omega

theorem FadeOk.enter {r : Rd} (h : FadeOk r) : FadeOk (fadeEnter r) := by
  have hA := h.A0
  have hE := h.AE
  have hD := h.D1
  have hle : r.loopStart * r.nch ≤ r.loopFinish * r.nch := mul_le_mul_of_nonneg_right hE (le_of_lt h.nch)
  have pE := h.pos (x := r.loopFinish) (by omega) (by omega)
  have pA := h.pos (x := r.loopStart) (by omega) (by omega)
  unfold fadeEnter
  split
  · split
    · refine ⟨h.nch, h.header0, hA, hE, hD, h.fits, h.flt, h.frac, fun _ _ => ?_, fun _ _ => ?_, h.w0, h.w1⟩ <;>
      · simp only
        split <;> simp only [pE, pA] <;> omega
    · exact h
  · split
    · refine ⟨h.nch, h.header0, hA, hE, hD, h.fits, h.flt, h.frac, fun _ _ => ?_, fun _ _ => ?_, h.w0, h.w1⟩ <;>
      · simp only
        split <;> simp only [pE, pA] <;> omega
    · exact h

theorem FadeOk.go (fp : Fp) {r r' : Rd} (h : FadeOk r) (hc : r.cfOn = true) (hg : fadeGo fp r = .ok r') : FadeOk r' := by
  have hA := h.A0
  have hE := h.AE
  have hD := h.D1
  have hn := h.nchBound
  have key : ∀ r1 : Rd, FadeOk r1 → r1.cfOn = false → FadeOk { r1 with rate := -r1.rate } := fun r1 k k0 =>
    ⟨k.nch, k.header0, k.A0, k.AE, k.D1, k.fits, k.flt, k.frac, fun x => by simp [k0] at x, fun x => by simp [k0] at x, k.w0, k.w1⟩
  unfold fadeGo at hg
  obtain ⟨r1, h1, hg⟩ := bind_ok_iff.1 hg
  have hr1 : FadeOk r1 := by
    split at h1
    · rename_i hu
      split at h1
      · cases h1
        exact ⟨h.nch, h.header0, hA, hE, hD, h.fits, h.flt, h.frac, fun x => (by cases x), fun x => (by cases x), h.w0, h.w1⟩
      · rename_i hlt
        obtain ⟨w, hw, h1⟩ := bind_ok_iff.1 h1
        cases h1
        have u1 := h.up hc hu
        rw [h.pos (by omega) (by omega)] at hlt
        rw [h.start hA (by omega)] at hw
        have e : (r.loopStart + r.cfDur) * r.nch = r.loopStart * r.nch + r.cfDur * r.nch := by ring
        have b : r.cfDur * r.nch ≤ 2147483647 :=  by
          have := frame_fits h.header0 (le_of_lt h.nch) (show 0 ≤ r.cfDur by omega) (show r.cfDur ≤ r.loopFinish + r.cfDur by omega) h.fits
          have := h.header0; omega
        obtain ⟨w', k1, k2, k3, _⟩ := fadeWeight_range fp (r := r) (d := r.pos2 - (r.header + r.loopStart * r.nch)) h.nch
          (by omega) hD (by omega) (by omega) (by omega)
        rw [hw] at k1
        cases k1
        exact ⟨h.nch, h.header0, hA, hE, hD, h.fits, h.flt, h.frac, h.up, h.down, k2, k3⟩
    · rename_i hu
      split at h1
      · cases h1
        exact ⟨h.nch, h.header0, hA, hE, hD, h.fits, h.flt, h.frac, fun x => (by cases x), fun x => (by cases x), h.w0, h.w1⟩
      · rename_i hlt
        obtain ⟨w, hw, h1⟩ := bind_ok_iff.1 h1
        cases h1
        have u1 := h.down hc (by simpa using hu)
        rw [h.pos (by omega) (by omega)] at hlt
        rw [h.start (by omega) (by omega)] at hw
        have e : (r.loopFinish - r.cfDur) * r.nch = r.loopFinish * r.nch - r.cfDur * r.nch := by ring
        have b : r.cfDur * r.nch ≤ 2147483647 :=  by
          have := frame_fits h.header0 (le_of_lt h.nch) (show 0 ≤ r.cfDur by omega) (show r.cfDur ≤ r.loopFinish + r.cfDur by omega) h.fits
          have := h.header0; omega
        obtain ⟨w', k1, k2, k3, _⟩ := fadeWeight_range fp (r := r) (d := r.header + r.loopFinish * r.nch - r.pos2) h.nch
          (by omega) hD (by omega) (by omega) (by omega)
        rw [hw] at k1
        cases k1
        exact ⟨h.nch, h.header0, hA, hE, hD, h.fits, h.flt, h.frac, h.up, h.down, k2, k3⟩
  split at hg
  · rename_i hb
    cases hg
    simp only [Bool.and_eq_true, Bool.not_eq_true'] at hb
    exact key r1 hr1 hb.1
  · cases hg; exact hr1

theorem FadeOk.update (fp : Fp) {r r' : Rd} (h : FadeOk r) (hg : updateCrossfade fp r = .ok r') : FadeOk r' := by
  rw [updateCrossfade_eq] at hg
  split at hg
  · rename_i hc
    exact h.enter.go fp hc hg
  · cases hg; exact h.enter

theorem chkI32_inv {x y : Int} (h : chkI32 x = .ok y) : y = x := by
  unfold chkI32 at h; split at h <;> cases h; rfl

/-- Where a successful `stepOn` leaves the second head. -/
theorem stepOn_pos2 {fp : Fp} {r r' : Rd} (h : stepOn fp r = .ok r') (hc : r.cfOn = true) :
    r'.pos2 = if r.loopType = .pingpong then r.pos2 - trunc (fp.d.rnd (r.rem + r.rate)) * r.nch
      else r.pos2 + trunc (fp.d.rnd (r.rem + r.rate)) * r.nch := by
  unfold stepOn at h
  obtain ⟨δ, h1, h⟩ := bind_ok_iff.1 h
  obtain ⟨st, h2, h⟩ := bind_ok_iff.1 h
  obtain ⟨p1, h3, h⟩ := bind_ok_iff.1 h
  have e1 := castI32_inv h1
  have e2 : st = δ * r.nch := by
    unfold chkI32 at h2; split at h2 <;> cases h2; rfl
  subst e1 e2
  rw [if_pos hc] at h
  obtain ⟨p2, h4, h⟩ := bind_ok_iff.1 h
  have e4 : p2 = if r.loopType = .pingpong then r.pos2 - trunc (fp.d.rnd (r.rem + r.rate)) * r.nch
      else r.pos2 + trunc (fp.d.rnd (r.rem + r.rate)) * r.nch := by
    exact chkI32_inv h4
  cases h
  exact e4

/-- The whole part of the accumulator has the sign of the rate. -/
theorem accum_sign (fp : Fp) {rem rate : ℚ} (hf : IsFloat 53 (-1074) rem) (h1 : |rem| < 1) :
    (0 ≤ rate → 0 ≤ trunc (fp.d.rnd (rem + rate))) ∧ (rate ≤ 0 → trunc (fp.d.rnd (rem + rate)) ≤ 0) := by
  have hrr : fp.d.rnd rem = rem := fp.d.exact _ hf
  obtain ⟨g1, g2⟩ := abs_lt.1 h1
  constructor
  · intro h0
    have h5 := fp.d.mono (show rem ≤ rem + rate by linarith)
    rw [hrr] at h5
    have := le_trunc_of_nonpos (x := fp.d.rnd (rem + rate)) (n := 0) (le_refl _) (by push_cast; linarith)
    exact this
  · intro h0
    have h5 := fp.d.mono (show rem + rate ≤ rem by linarith)
    rw [hrr] at h5
    exact trunc_le_of_nonneg (x := fp.d.rnd (rem + rate)) (n := 0) (le_refl _) (by push_cast; linarith)

theorem FadeOk.step {fp : Fp} (hfp : Representable fp) {r r' : Rd} (h : FadeOk r) (hg : stepOn fp r = .ok r') : FadeOk r' := by
  obtain ⟨s1, s2⟩ := accum_sign fp h.flt h.frac (rate := r.rate)
  have hp2 := stepOn_pos2 hg
  obtain ⟨p2, hr⟩ := stepOn_inv hg
  have hfr := frac_isFloat (hfp (r.rem + r.rate))
  have hrem : r'.rem = fp.d.rnd (r.rem + r.rate) - trunc (fp.d.rnd (r.rem + r.rate)) := by
    rw [hr]; exact fp.d.exact _ hfr
  have hup : r'.up = r.up := by rw [hr]; rfl
  have hcf : r'.cfOn = r.cfOn := by rw [hr]
  have hc := stepOn_conf hg
  have hw : r'.crossfade = r.crossfade := by rw [hr]
  have hnn := le_of_lt h.nch
  refine ⟨by rw [hc.nch]; exact h.nch, by rw [hc.header]; exact h.header0, by rw [hc.loopStart]; exact h.A0,
    by rw [hc.loopStart, hc.loopFinish]; exact h.AE, by rw [hc.cfDur]; exact h.D1,
    by rw [hc.header, hc.nch, hc.loopFinish, hc.cfDur]; exact h.fits, by rw [hrem]; exact hfr,
    by rw [hrem]; exact trunc_rest _, ?_, ?_, by rw [hw]; exact h.w0, by rw [hw]; exact h.w1⟩
  · rw [hcf, hup, hc.header, hc.loopStart, hc.nch]
    intro x y
    have k := h.up x y
    rw [hp2 x]
    have y' := y
    unfold Rd.up at y'
    by_cases hl : r.loopType = .pingpong
    · rw [if_pos hl]
      have hr0 : r.rate ≤ 0 := by simpa [hl] using y'
      have := mul_nonpos_of_nonpos_of_nonneg (s2 hr0) hnn
      omega
    · rw [if_neg hl]
      have hr0 : 0 < r.rate := by simpa [hl] using y'
      have := mul_nonneg (s1 (le_of_lt hr0)) hnn
      omega
  · rw [hcf, hup, hc.header, hc.loopFinish, hc.nch]
    intro x y
    have k := h.down x y
    rw [hp2 x]
    have y' := y
    unfold Rd.up at y'
    by_cases hl : r.loopType = .pingpong
    · rw [if_pos hl]
      have hr0 : 0 < r.rate := by simpa [hl] using y'
      have := mul_nonneg (s1 (le_of_lt hr0)) hnn
      omega
    · rw [if_neg hl]
      have hr0 : r.rate ≤ 0 := by simpa [hl] using y'
      have := mul_nonpos_of_nonpos_of_nonneg (s2 hr0) hnn
      omega

theorem FadeOk.same {r r' : Rd} (h : FadeOk r) (hb : SameBut r r') : FadeOk r' := by
  rw [hb]
  exact ⟨h.nch, h.header0, h.A0, h.AE, h.D1, h.fits, h.flt, h.frac, h.up, h.down, h.w0, h.w1⟩

theorem atEnd_dual {r : Rd} (h : r.dual = true) : r.atEnd = false := by
  unfold Rd.atEnd; rw [if_pos h]

/-- Over any successful dual-head read the weight stays in range. -/
theorem readLoop_fade {fp : Fp} (hfp : Representable fp) {fuel : Nat} : ∀ {n : Nat} {r : Rd} {s : σ} {o : ReadOut σ},
    readLoop fp S fuel n r s = .ok o → r.dual = true → FadeOk r → FadeOk o.r
  | 0, r, s, o, h, _, hr => by unfold readLoop at h; cases h; exact hr
  | n + 1, r, s, o, h, hd, hr => by
    rw [readLoop_succ] at h
    rw [if_pos hd] at h
    obtain ⟨r0, h0, h⟩ := bind_ok_iff.1 h
    have k0 := hr.update fp h0
    have d0 : r0.dual = true := by rw [(updateCrossfade_conf h0).dual]; exact hd
    obtain ⟨⟨vs, ok, r1, s1⟩, h1, h⟩ := bind_ok_iff.1 h
    obtain ⟨c, _, e⟩ := readFrame_settled (atEnd_dual d0) h1
    have k1 := k0.same e
    subst c
    simp only [if_true] at h
    obtain ⟨r2, h2, h⟩ := bind_ok_iff.1 h
    obtain ⟨o2, h3, h⟩ := bind_ok_iff.1 h
    have k3 := readLoop_fade hfp h3 (by rw [(stepOn_conf h2).dual, e.conf.dual]; exact d0) (k1.step hfp h2)
    cases h
    exact k3

end TVP
