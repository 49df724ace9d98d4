import Verif.Lemmas.PingShort

/-!
# Starting a ping-pong loop
-/

namespace TVP
open Spec

variable {m : List Nat} {g : Geo} {fp : Fp}

/-- Where a player turns at the bottom of a ping-pong loop. -/
def turnBelow (r : Rd) : Int := if r.playStart = .sample then r.header else r.header + r.loopStart * r.nch

theorem playFinish_ping (hm : m.length < 2 ^ 31) {r : Rd} {f : Dev} (hf : f.bytes = m) (hsz : r.fileSize = m.length)
    (hH : 0 ≤ r.header) (hn : 0 < r.nch) (hd : r.dual = false) (hi : r.interp = .none)
    (hl : r.loopType = .pingpong) {R : Int} (hR0 : r.rate ≠ 0) (hR : |r.rate| ≤ R) (hflt : IsFloat 53 (-1074) r.rem) (hfrac : |r.rem| < 1)
    (hA : 0 ≤ r.loopStart) (hAZ : r.loopStart + r.nch ≤ r.loopFinish)
    (hE : 2 * (r.header + r.loopFinish * r.nch) ≤ m.length) {P0 S0 X : Int}
    (hP : if 0 ≤ r.rate then P0 = r.header + firstFrame r * r.nch else backStart r ((m.length : Int) / 2) r.loopFinish = P0)
    (hP0 : 0 ≤ P0) (hPE : P0 + r.nch ≤ (m.length : Int) / 2) (hgrid : r.nch ∣ P0 - r.header)
    (hfwd : 0 < r.rate → S0 ≤ P0 ∧ P0 ≤ r.header + r.loopFinish * r.nch) (hbwd : r.rate < 0 → turnBelow r ≤ P0 ∧ P0 + r.nch ≤ X) :
    ∃ (a : FileReader) (c : Cache), playFinish g r f = .ok (true, a) ∧ a.rd.playing = true ∧
      PP R (turnBelow r) (r.header + (r.loopFinish - r.nch) * r.nch) (r.header + r.loopFinish * r.nch) S0 X r.nch a.rd ∧
      a.rd.pos1 = P0 ∧ a.rd.header = r.header ∧ a.rd.loopStart = r.loopStart ∧ a.rd.loopFinish = r.loopFinish ∧
      a.rd.rate = r.rate ∧ a.rd.rem = r.rem ∧ a.src = some (c.preLoad g P0 (decide (0 ≤ r.rate))) ∧
      c.dev.bytes = m ∧ c.bufs = [] ∧ c.fails = 0 ∧ c.prevRate = 0 ∧ PConf ((r.header + r.loopStart * r.nch) / g.B) ((r.header + r.loopFinish * r.nch) / g.B) c := by
  have hle : ∀ x, x ≤ r.loopFinish → x * r.nch ≤ r.loopFinish * r.nch := fun x hx => mul_le_mul_of_nonneg_right hx (le_of_lt hn)
  have hge : ∀ x, 0 ≤ x → 0 ≤ x * r.nch := fun x hx => mul_nonneg hx (le_of_lt hn)
  have hone : r.loopFinish ≤ r.loopFinish * r.nch := le_mul_of_one_le_right (by omega) (by omega)
  have hZ1 : (0 + 1) * r.nch ≤ r.loopFinish * r.nch := hle _ (by omega)
  have hA1 := hge _ hA
  have hRn : 0 ≤ R := by
    have : (0 : ℚ) ≤ R := le_trans (abs_nonneg _) hR
    exact_mod_cast this
  have hnR : 0 ≤ r.nch * (R + 1) := mul_nonneg (le_of_lt hn) (by omega)
  unfold playFinish
  rw [hsz, if_neg (by unfold u32; omega), if_neg (by omega)]
  simp only [hl, reduceCtorEq, if_false]
  set rd0 : Rd := { r with fileSize := m.length, loopType := .pingpong, fileSamples := r.fileSamples.tdiv r.nch, loopStart := i32 r.loopStart, loopFinish := i32 r.loopFinish } with hrd0
  have hA32 : i32 r.loopStart = r.loopStart := i32_of_in ⟨by omega, by omega⟩
  have hZ32 : i32 r.loopFinish = r.loopFinish := i32_of_in ⟨by omega, by omega⟩
  have hpos : ∀ x, 0 ≤ x → x ≤ r.loopFinish → i32 (rd0.s2s x) = r.header + x * r.nch := by
    intro x h1 h2
    have := hle x h2
    have := hge x h1
    have e : rd0.posOf x = rd0.header + x * rd0.nch := posOf_eq ⟨by show -2147483648 ≤ r.header + x * r.nch; omega, by show r.header + x * r.nch ≤ 2147483647; omega⟩
    exact e
  have hp : rd0.reset.pos1 = P0 := by
    have hpos : ∀ y, r.header + y * r.nch = P0 → Rd.posOf { rd0 with pts := fun c => if c < 8 then { rd0.pts c with n := 0 } else rd0.pts c } y = P0 := by
      intro y hy
      rw [posOf_eq (r := { rd0 with pts := fun c => if c < 8 then { rd0.pts c with n := 0 } else rd0.pts c })
        ⟨by show -2147483648 ≤ r.header + y * r.nch; omega, by show r.header + y * r.nch ≤ 2147483647; omega⟩]
      exact hy
    have hps : rd0.playStart = r.playStart := rfl
    have hls : rd0.loopStart = r.loopStart := hA32
    unfold Rd.reset
    by_cases h0 : 0 ≤ r.rate
    · have h0' : rd0.rate ≥ 0 := h0
      rw [if_pos h0] at hP
      simp only [h0', if_true]
      unfold firstFrame at hP
      rw [hps, hls]
      cases hstart : r.playStart <;> simp only [hstart] at hP ⊢ <;> exact hpos _ hP.symm
    · have h0' : ¬ (rd0.rate ≥ 0) := h0
      rw [if_neg h0] at hP
      simp only [h0', if_false]
      unfold backStart at hP
      rw [hps]
      cases hstart : r.playStart with
      | sample =>
        rw [hstart] at hP
        simp only at hP ⊢
        show i32 ((m.length : Int).tdiv 2 - r.nch) = P0
        rw [Int.tdiv_eq_ediv_of_nonneg (by omega), i32_of_in ⟨by omega, by omega⟩]
        exact hP
      | loop =>
        rw [hstart] at hP
        exact hpos (i32 r.loopFinish - r.nch) (by rw [hZ32]; exact hP)
      | arbitrary =>
        rw [hstart] at hP
        exact hpos _ hP
  refine ⟨⟨{ rd0.reset with playing := true }, some (Cache.preLoad g { dev := f, loopType := .pingpong, loopStartBlk := i32 (rd0.s2s (i32 r.loopStart)) / g.B, loopFinishBlk := i32 (rd0.s2s (i32 r.loopFinish)) / g.B } P0 (decide (0 ≤ r.rate)))⟩,
    { dev := f, loopType := .pingpong, loopStartBlk := i32 (rd0.s2s (i32 r.loopStart)) / g.B, loopFinishBlk := i32 (rd0.s2s (i32 r.loopFinish)) / g.B }, ?_, rfl, ?_, hp, rfl, hA32, hZ32, rfl, rfl, rfl, hf, rfl, rfl, rfl, rfl, ?_, ?_⟩
  · rw [← hp]; rfl
  · have hbot : turnBelow r = if r.playStart = .sample then r.header else r.header + r.loopStart * r.nch := rfl
    have hgrid' : r.nch ∣ P0 - turnBelow r := by
      rw [hbot]
      split
      · exact hgrid
      · have := dvd_sub hgrid (Dvd.intro_left r.loopStart rfl : r.nch ∣ r.loopStart * r.nch)
        rwa [show P0 - r.header - r.loopStart * r.nch = P0 - (r.header + r.loopStart * r.nch) by ring] at this
    refine ⟨⟨hd, hi, rfl, hn⟩, rfl, hR0, hR, hflt, hfrac, rfl, ?_, ?_, ?_, by simp only [hp]; exact hgrid', ?_, ?_⟩
    · show (if r.playStart = .sample then r.header else i32 (rd0.s2s (i32 r.loopStart))) = _
      rw [hbot]
      split
      · rfl
      · rw [hA32, hpos _ hA (by omega)]
    · show i32 (rd0.s2s (i32 r.loopFinish - r.nch)) = _
      rw [hZ32, hpos _ (by omega) (by omega)]
    · show i32 (rd0.s2s (i32 r.loopFinish)) = _
      rw [hZ32, hpos _ (by omega) (le_refl _)]
    · intro h0
      have := hfwd h0
      simp only [hp]; exact ⟨this.1, by omega⟩
    · intro h0
      have := hbwd h0
      simp only [hp]; exact ⟨by omega, this.2⟩
  · simp only; rw [hZ32, hpos _ (by omega) (le_refl _)]
  · simp only; rw [hA32, hpos _ hA (by omega)]

end TVP
