import Verif.Lemmas.ArrayPlay
import Verif.Props.Read

/-!
# Properties C25-C31: which source frames are delivered
-/

namespace TVP
open Spec

/-- A rate the fractional accumulator handles exactly: a multiple of `2^-p` of magnitude at most `2^(52-p)`
(and at most 2^30 frames).  Every `float` rate of magnitude between `2^-28` and `2^28` is one. -/
theorem gridRate_of_float {r : ℚ} {m e : Int} (hm : |m| < 2 ^ 24) (he : -52 ≤ e) (he' : e ≤ 6) (hr : r = m * 2 ^ e) :
    ∃ p, GridRate p r := by
  subst hr
  have hm' : |(m : ℚ)| ≤ 2 ^ 24 := by exact_mod_cast le_of_lt hm
  rcases le_or_gt 0 e with h0 | h0
  · obtain ⟨k, rfl⟩ : ∃ k : Nat, e = k := ⟨e.toNat, by omega⟩
    have hk : (2 : ℚ) ^ k ≤ 2 ^ 6 := pow_le_pow_right₀ (by norm_num) (by omega)
    have hb : |(m : ℚ) * 2 ^ (k : Int)| ≤ 2 ^ 30 := by
      rw [zpow_natCast, abs_mul, abs_of_pos (show (0 : ℚ) < 2 ^ k by positivity)]
      calc |(m : ℚ)| * 2 ^ k ≤ 2 ^ 24 * 2 ^ 6 := mul_le_mul hm' hk (by positivity) (by norm_num)
        _ = 2 ^ 30 := by norm_num
    refine ⟨0, by norm_num, ⟨m * 2 ^ k, by push_cast; rw [zpow_natCast]; ring⟩, le_trans hb (by norm_num), hb⟩
  · obtain ⟨k, rfl⟩ : ∃ k : Nat, e = -(k : Int) := ⟨(-e).toNat, by omega⟩
    have h2 : (0 : ℚ) < 2 ^ k := by positivity
    have he2 : (m : ℚ) * 2 ^ (-(k : Int)) = m / 2 ^ k := by rw [zpow_neg, zpow_natCast]; rfl
    rw [he2]
    refine ⟨k, by omega, ⟨m, rfl⟩, ?_, ?_⟩
    · rw [abs_div, abs_of_pos h2, div_le_iff₀ h2, ← pow_add, show 52 - k + k = 52 by omega]
      exact le_trans hm' (by norm_num)
    · rw [abs_div, abs_of_pos h2, div_le_iff₀ h2]
      have : (1 : ℚ) ≤ 2 ^ k := one_le_pow₀ (by norm_num)
      nlinarith

/-- Settings under which the plain resampling laws hold. -/
structure PlainSettings (r : Rd) : Prop where
  dual : r.dual = false
  interp : r.interp = .none

/-- After `playRaw(data, F, nch)` at a non-negative rate from the first sample, the reader is at the exact
position left in the accumulator. -/
theorem playRaw_fwd (a : ArrayReader) (data : List Int) {F nch : Nat} (hc : 1 ≤ nch) (hc' : nch ≤ 32767)
    {p : Nat} {R : Int} (hset : PlainSettings a.rd) (hloop : a.rd.loopType = .none) (hstart : a.rd.playStart = .sample)
    (h0 : 0 ≤ a.rd.rate) (hg : GridRate p a.rd.rate) (hR : a.rd.rate ≤ R) (hfit : (nch : Int) * (F + R + 1) ≤ 2147483647)
    (hrem : OnGrid p a.rd.rem) (hrem0 : 0 ≤ a.rd.rem) (hrem1 : a.rd.rem < 1) :
    Fwd (a.playRaw data F nch).2.rd p R a.rd.rem := by
  have hR0 : 0 ≤ R := by
    have : (0 : ℚ) ≤ R := le_trans h0 hR
    exact_mod_cast this
  have hF31 : F < 2 ^ 31 := by
    have : (1 : Int) * (F + R + 1) ≤ nch * (F + R + 1) := mul_le_mul_of_nonneg_right (by omega) (by omega)
    omega
  obtain ⟨h1, h2, h3, h4, h5, h6, h7, h8, h9, h10, h11, h12, h13, h14, h15, h16, h17, h18⟩ :=
    playRaw_setup a data hc hc' hF31
  have hfl : ⌊a.rd.rem⌋ = 0 := by rw [Int.floor_eq_iff]; push_cast; constructor <;> linarith
  refine ⟨⟨by rw [h13, hset.dual], by rw [h14, hset.interp], h15, by rw [h4]; omega⟩, by rw [h10, hloop],
    by rw [h8]; exact h0, by rw [h8]; exact hg, hrem, hrem0, ?_, ?_, by rw [h3], by rw [h5]; omega, by rw [h8]; exact hR,
    by rw [h3, h4, h5, zero_add]; exact hfit, by rw [hfl, h5]; omega⟩
  · rw [h18, if_pos h0, hstart, hfl, h3]
    simp only [zero_mul, add_zero]
    rw [posOf_eq (by rw [h3]; simp [InI32]), h3]; ring
  · rw [h9, hfl]; simp

/-- **C25** (forward resampling law) and the delivery part of **C26**.  Play an array forwards without looping or
interpolation at a grid rate `r`; then, whatever the sizes of the `read` calls, the frames delivered are the source
frames `⌊0·r⌋, ⌊1·r⌋, ⌊2·r⌋, ...` as long as they are inside the material, and nothing after that. -/
theorem C25_forward_law (fp : Fp) (fuel : Nat) (a : ArrayReader) (data : List Int) {F nch : Nat} (hc : 1 ≤ nch)
    (hc' : nch ≤ 32767) (hlen : F * nch ≤ data.length) {p : Nat} {R : Int}
    (hset : PlainSettings a.rd) (hloop : a.rd.loopType = .none) (hstart : a.rd.playStart = .sample)
    (h0 : 0 ≤ a.rd.rate) (hg : GridRate p a.rd.rate) (hR : a.rd.rate ≤ R) (hfit : (nch : Int) * (F + R + 1) ≤ 2147483647)
    (hrem : a.rd.rem = 0) (ns : List Nat) :
    ∃ a', readAll fp (fuel + 2) ns (a.playRaw data F nch).2 =
      .ok ((forwardFrames 0 a.rd.rate F ns.sum).map (frameOf data nch), a') := by
  have hf := playRaw_fwd a data hc hc' hset hloop hstart h0 hg hR hfit (by rw [hrem]; simpa using OnGrid.int p 0)
    (by rw [hrem]) (by rw [hrem]; norm_num)
  have hR0 := hf.R0
  have hF31 : F < 2 ^ 31 := by
    have : (1 : Int) * (F + R + 1) ≤ nch * (F + R + 1) := mul_le_mul_of_nonneg_right (by omega) (by omega)
    omega
  obtain ⟨h1, h2, h3, h4, h5, h6, h7, h8, h9, h10, h11, h12, h13, h14, h15, h16, h17, h18⟩ :=
    playRaw_setup a data hc hc' hF31
  obtain ⟨a', h, _⟩ := readAll_fwd fp fuel data ns _ _ hf h2 h3 h1 (by rw [h5, h4]; exact_mod_cast hlen)
  refine ⟨a', ?_⟩
  rw [h, h8, h5, h4, hrem]
  rfl

/-- **C26** The number of frames delivered: all that is asked for, up to `⌈F / r⌉` in total, and never more. -/
theorem C26_exact_length (fp : Fp) (fuel : Nat) (a : ArrayReader) (data : List Int) {F nch : Nat} (hc : 1 ≤ nch)
    (hc' : nch ≤ 32767) (hlen : F * nch ≤ data.length) {p : Nat} {R : Int}
    (hset : PlainSettings a.rd) (hloop : a.rd.loopType = .none) (hstart : a.rd.playStart = .sample)
    (h0 : 0 < a.rd.rate) (hg : GridRate p a.rd.rate) (hR : a.rd.rate ≤ R) (hfit : (nch : Int) * (F + R + 1) ≤ 2147483647)
    (hrem : a.rd.rem = 0) (ns : List Nat) :
    ∃ frames a', readAll fp (fuel + 2) ns (a.playRaw data F nch).2 = .ok (frames, a') ∧
      frames.length = min ns.sum ⌈(F : ℚ) / a.rd.rate⌉.toNat := by
  obtain ⟨a', h⟩ := C25_forward_law fp fuel a data hc hc' hlen hset hloop hstart (le_of_lt h0) hg hR hfit hrem ns
  refine ⟨_, a', h, ?_⟩
  rw [List.length_map, forwardFrames_length h0, sub_zero]
  rfl

/-- A fresh reader at three quarters speed. -/
def exSlow : ArrayReader := { rd := { rate := 3 / 4 } }

theorem exSlow_grid : GridRate 2 exSlow.rd.rate :=
  ⟨by norm_num, ⟨3, by norm_num [exSlow]⟩, by norm_num [exSlow, abs_of_pos], by norm_num [exSlow, abs_of_pos]⟩

example : ∃ a', readAll Fp.ieee 2 [3, 4] (exSlow.playRaw [10, -10, 20, -20, 30, -30] (3 : Nat) (2 : Nat)).2 =
    .ok ((forwardFrames 0 (3 / 4) (3 : Nat) 7).map (frameOf [10, -10, 20, -20, 30, -30] 2), a') :=
  C25_forward_law Fp.ieee 0 exSlow [10, -10, 20, -20, 30, -30] (F := 3) (nch := 2) (R := 1) (by norm_num) (by norm_num)
    (by simp) ⟨rfl, rfl⟩ rfl rfl (by norm_num [exSlow]) exSlow_grid (by norm_num [exSlow]) (by norm_num) rfl [3, 4]

example : framesOf (readAll Fp.ieee 2 [3, 4] (exSlow.playRaw [10, -10, 20, -20, 30, -30] 3 2).2) =
    .ok [[10, -10], [10, -10], [20, -20], [30, -30]] := by decide +kernel

/-- The frame reverse playback starts at: the one set by the user; the last frame of a mono array; for
`play_start_loop` `nch` frames before the end. -/
def ReverseStart (r : Rd) (F nch : Nat) (s : Int) : Prop :=
  (r.playStart = .arbitrary ∧ s = r.playbackStart) ∨ (r.playStart = .sample ∧ nch = 1 ∧ F < 2 ^ 30 ∧ s = F - 1) ∨
    (r.playStart = .loop ∧ s = F - nch)

/-- **C27** (reverse resampling law).  Playing an array backwards at speed `ρ` from frame `s` delivers
`s, s - ⌊ρ⌋, s - ⌊2ρ⌋, ...` down to frame 0, however the reads are sized. -/
theorem C27_reverse_law (fp : Fp) (fuel : Nat) (a : ArrayReader) (data : List Int) {F nch : Nat} (hc : 1 ≤ nch)
    (hc' : nch ≤ 32767) (hlen : F * nch ≤ data.length) {p : Nat} {R : Int} {ρ : ℚ} (hρ : 0 < ρ)
    (hset : PlainSettings a.rd) (hloop : a.rd.loopType = .none) {s : Int} (hstart : ReverseStart a.rd F nch s)
    (hs0 : 0 ≤ s) (hsF : s < F) (hrate : a.rd.rate = -ρ) (hg : GridRate p ρ) (hR : ρ ≤ R)
    (hfit : (nch : Int) * (F + R + 1) ≤ 2147483647) (hrem : a.rd.rem = 0) (ns : List Nat) :
    ∃ a', readAll fp (fuel + 2) ns (a.playRaw data F nch).2 =
      .ok ((reverseFrames s ρ 0 ns.sum).map (frameOf data nch), a') := by
  have hR0 : 0 ≤ R := by
    have : (0 : ℚ) ≤ R := le_trans (le_of_lt hρ) hR
    exact_mod_cast this
  have hF31 : F < 2 ^ 31 := by
    have : (1 : Int) * (F + R + 1) ≤ nch * (F + R + 1) := mul_le_mul_of_nonneg_right (by omega) (by omega)
    omega
  obtain ⟨h1, h2, h3, h4, h5, h6, h7, h8, h9, h10, h11, h12, h13, h14, h15, h16, h17, h18⟩ :=
    playRaw_setup a data hc hc' hF31
  have hneg : a.rd.rate < 0 := by rw [hrate]; linarith
  have hsfit := frame_fits (H := 0) (N := nch) (le_refl 0) (by omega) hs0 (show s ≤ F + R + 1 by omega)
    (by rw [zero_add]; exact hfit)
  have hpos : (a.playRaw data F nch).2.rd.pos1 = s * nch := by
    rw [h18, if_neg (not_le.2 hneg)]
    have hpo : ∀ x, x = s → (a.playRaw data F nch).2.rd.posOf x = s * nch := by
      rintro x rfl
      rw [posOf_eq (by rw [h3, h4]; unfold InI32; omega), h3, h4]; ring
    rcases hstart with ⟨e, e'⟩ | ⟨e, e', e'', e3⟩ | ⟨e, e'⟩
    · rw [e]; exact hpo _ e'.symm
    · rw [e]
      simp only
      rw [h17, e3, e']
      have : i32 (2 * (F : Int)) = 2 * F := by unfold i32; omega
      rw [this, show (2 * (F : Int)).tdiv 2 = F from Int.mul_tdiv_cancel_left _ (by norm_num)]
      unfold i32; push_cast; omega
    · rw [e]; exact hpo _ e'.symm
  have hrev : Rev (a.playRaw data F nch).2.rd p R 0 s := by
    refine ⟨⟨by rw [h13, hset.dual], by rw [h14, hset.interp], h15, by rw [h4]; omega⟩, by rw [h10, hloop],
      by rw [h8]; exact hneg, by rw [h8, hrate]; exact hg.neg, OnGrid.int p s, ?_, ?_, by rw [h3], ?_, le_refl 0,
      by rw [h5]; omega, by rw [h8, hrate, neg_neg]; exact hR, by rw [h3, h4, h5, zero_add]; exact hfit,
      by rw [Int.ceil_intCast, h5]; exact hsF, by rw [Int.ceil_intCast]; omega⟩
    · rw [Int.ceil_intCast, h3, h4, hpos]; ring
    · rw [Int.ceil_intCast, h9, hrem]; ring
    · rw [h11, h6]
      by_cases e : a.rd.playStart = .sample
      · exact Or.inl ⟨e, rfl⟩
      · exact Or.inr ⟨e, rfl⟩
  obtain ⟨a', h, _⟩ := readAll_rev fp fuel data ns _ _ hrev h2 h3 h1 (by rw [h5, h4]; exact_mod_cast hlen)
  refine ⟨a', ?_⟩
  rw [h, h8, h4, hrate, neg_neg]
  rfl

/-- The specification in closed form: from a whole frame `s`, the `k`-th frame is `s - ⌊kρ⌋`. -/
theorem reverseFrames_whole {ρ : ℚ} (hρ : 0 < ρ) (s : Int) (n : Nat) :
    reverseFrames s ρ 0 n =
      (List.range (min n ⌈((s : ℚ) + 1) / ρ⌉.toNat)).map fun k : Nat => s - ⌊(k : ℚ) * ρ⌋ := by
  have hlen := reverseFrames_length hρ 0 n s
  rw [Int.cast_zero, sub_zero] at hlen
  have hceil : ∀ k : Nat, ⌈(s : ℚ) - k * ρ⌉ = s - ⌊(k : ℚ) * ρ⌋ := by
    intro k
    rw [sub_eq_add_neg, Int.ceil_intCast_add, Int.ceil_neg]; ring
  have hpre : reverseFrames s ρ 0 n <+: (List.range n).map fun k : Nat => ⌈(s : ℚ) - k * ρ⌉ :=
    List.takeWhile_prefix _
  rw [List.prefix_iff_eq_take] at hpre
  rw [hpre, hlen, ← List.map_take, List.take_range, min_assoc, min_comm _ n, ← min_assoc, min_self]
  exact List.map_congr_left fun k _ => hceil k

/-- **C27**, counting: `⌈(s+1)/ρ⌉` frames in total, the `k`-th being `s - ⌊kρ⌋`. -/
theorem C27_reverse_closed (fp : Fp) (fuel : Nat) (a : ArrayReader) (data : List Int) {F nch : Nat} (hc : 1 ≤ nch)
    (hc' : nch ≤ 32767) (hlen : F * nch ≤ data.length) {p : Nat} {R : Int} {ρ : ℚ} (hρ : 0 < ρ)
    (hset : PlainSettings a.rd) (hloop : a.rd.loopType = .none) {s : Int} (hstart : ReverseStart a.rd F nch s)
    (hs0 : 0 ≤ s) (hsF : s < F) (hrate : a.rd.rate = -ρ) (hg : GridRate p ρ) (hR : ρ ≤ R)
    (hfit : (nch : Int) * (F + R + 1) ≤ 2147483647) (hrem : a.rd.rem = 0) (ns : List Nat) :
    ∃ a', readAll fp (fuel + 2) ns (a.playRaw data F nch).2 =
      .ok ((List.range (min ns.sum ⌈((s : ℚ) + 1) / ρ⌉.toNat)).map fun k : Nat => frameOf data nch (s - ⌊(k : ℚ) * ρ⌋), a') := by
  obtain ⟨a', h⟩ := C27_reverse_law fp fuel a data hc hc' hlen hρ hset hloop hstart hs0 hsF hrate hg hR hfit hrem ns
  exact ⟨a', by rw [h, reverseFrames_whole hρ, List.map_map]; rfl⟩

/-- A reader set to play backwards at half speed from frame 2. -/
def exBack : ArrayReader := { rd := { rate := -(1 / 2), playStart := .arbitrary, playbackStart := 2 } }

example : ∃ a', readAll Fp.ieee 2 [2, 9] (exBack.playRaw [10, -10, 20, -20, 30, -30] (3 : Nat) (2 : Nat)).2 =
    .ok ((List.range (min 11 ⌈(((2 : Int) : ℚ) + 1) / (1 / 2)⌉.toNat)).map fun k : Nat =>
      frameOf [10, -10, 20, -20, 30, -30] 2 (2 - ⌊(k : ℚ) * (1 / 2)⌋), a') :=
  C27_reverse_closed Fp.ieee 0 exBack [10, -10, 20, -20, 30, -30] (F := 3) (nch := 2) (R := 1) (p := 1) (s := 2) (by norm_num)
    (by norm_num) (by simp) (by norm_num) ⟨rfl, rfl⟩ rfl (Or.inl ⟨rfl, rfl⟩) (by norm_num) (by norm_num) rfl
    ⟨by norm_num, ⟨1, by norm_num⟩, by norm_num [abs_of_pos], by norm_num [abs_of_pos]⟩ (by norm_num) (by norm_num) rfl [2, 9]

example : framesOf (readAll Fp.ieee 2 [2, 9] (exBack.playRaw [10, -10, 20, -20, 30, -30] 3 2).2) =
    .ok [[30, -30], [30, -30], [20, -20], [20, -20], [10, -10], [10, -10]] := by decide +kernel

end TVP
