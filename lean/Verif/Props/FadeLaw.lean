import Verif.Lemmas.FadeRead
import Verif.Props.Safe

/-!
# Property C73: what a cross-faded loop sounds like
-/

namespace TVP
open Spec

/-- **C73** (cross-faded loop).  With the dual head, at unit rate up or down and without interpolation, a loop over the frames from `A` to
`E` cross-faded over `D` frames is heard as `headsAt` says, frame by frame and for ever: `s` and the frames after it, then laps of
`E - A - D` frames, each beginning with a linear fade of `D` frames from the end of the loop to where the lap begins.  Exactly the old
sample at the beginning of the fade and the new one at its end, in between their mean up to truncation.  Reads are always full.
Partial: the fade must be less than half the loop, and downwards or to and fro the loop must end before the last frame does. -/
theorem C73_fade_law_partial (fp : Fp) (fuel : Nat) (a : ArrayReader) (data : List Int) (h16 : ∀ v ∈ data, InI16 v) {F nch : Nat}
    (hc : 1 ≤ nch) (hc' : nch ≤ 32767) (hlen : F * nch ≤ data.length) (hF : F < 2 ^ 31) (t : LoopType) {up : Bool} {A E D s : Int}
    (hA : 0 ≤ A) (hD : 1 ≤ D) (hL : 2 * D + 2 ≤ E - A) (hE : E ≤ F) (hfit : (nch : Int) * (E + D + 2) ≤ 2147483647)
    (hup : up = true → 0 ≤ s ∧ s ≤ E - D) (hdown : up = false → A + D ≤ s ∧ s ≤ E + D ∧ s < F)
    (hlast : up = false ∨ t = .pingpong → E < F)
    (hdual : a.rd.dual = true) (hint : a.rd.interp = .none) (hcd : a.rd.cfDur = D) (hstart : a.rd.playStart = .arbitrary)
    (hst : a.rd.playbackStart = s) (hrate : a.rd.rate = if up then 1 else -1) (hrem : a.rd.rem = 0) (ns : List Nat) :
    ∃ fs a', readAll fp (fuel + 1) ns ((a.playRaw data F nch).2.loopOver t A E) = .ok (fs, a') ∧ fs.length = ns.sum ∧
      ∀ k : Nat, k < ns.sum → ∃ f, fs[k]? = some f ∧ f.length = nch ∧ ∀ c : Nat, c < nch → ∃ v, f[c]? = some v ∧
        Sounds D (fun i => data.getD (i * nch + c).toNat 0) (headsAt (decide (t = .pingpong)) A E D s up k) v := by
  have hs : 0 ≤ s ∧ s ≤ E + D := by
    cases up
    · have := hdown rfl; omega
    · have := hup rfl; omega
  have f := frame_fits (H := 0) (N := nch) (le_refl 0) (by omega) hs.1 (show s ≤ E + D + 2 by omega)
    (by rw [zero_add]; exact hfit)
  obtain ⟨k1, k2, k3, k4, k5, k6, k7, k8, k9, k10, k11, k12, k13, k14⟩ := loopOver_setup a data hc hc' hF t
    hA hE (by omega) hstart hst (by unfold InI32; omega)
  have k15 : ((a.playRaw data F nch).2.loopOver t A E).rd.cfDur = a.rd.cfDur := by
    obtain ⟨_, _, _, _, _, _, _, _, _, _, _, _, _, _, _, h, _⟩ := playRaw_setup a data hc hc' hF
    exact h
  set b := (a.playRaw data F nch).2.loopOver t A E with hb
  have hconf : FadeConf b.rd (decide (t = .pingpong)) A E D :=
    ⟨by rw [k11, hdual], by rw [k12, hint], by rw [k4]; omega, by rw [k3], by rw [k9], k5, k6, by rw [k15, hcd], by rw [k8, hrem], hA, hD, hL,
      by rw [k3, k4, zero_add]; exact hfit⟩
  have hrate' : b.rd.rate = dirQ up := by rw [k7, hrate]; rfl
  have hpos : ∀ q : Int, q = s → b.rd.pos1 = b.rd.header + q * b.rd.nch := by
    rintro q rfl; rw [k14, k3, k4, zero_add]
  have hph : Phase (decide (t = .pingpong)) A E D s up 0 b.rd := by
    unfold Phase
    by_cases h0 : 0 < firstLap A E D s up
    · rw [if_pos h0]
      refine ⟨hconf, hrate', hpos _ (by split <;> omega), k13, ?_⟩
      revert h0
      cases up <;> simp [firstLap] <;> omega
    · have h1 : 0 - firstLap A E D s up = 0 := by
        revert h0
        cases up
        · have := hdown rfl; simp [firstLap]; omega
        · have := hup rfl; simp [firstLap]; omega
      rw [if_neg h0, h1, Int.zero_emod, Int.zero_ediv, if_pos (by omega), lapUp_zero]
      refine ⟨hconf, le_refl _, by omega, by rw [nextUp_bne]; exact hrate', hpos _ ?_, by rw [k13]; rfl, fun x => absurd rfl x⟩
      have : outHead A E D (decide (t = .pingpong)) (nextUp (decide (t = .pingpong)) up) 0 = outHead A E D false up 0 := by
        unfold outHead; rw [nextUp_bne, Bool.bne_false]
      rw [this]
      revert h1
      cases up <;> simp [firstLap, outHead] <;> omega
  have hv : ∀ i : Int, InI16 (data.getD i.toNat 0) := by
    intro i
    rcases Nat.lt_or_ge i.toNat data.length with h | h
    · have e : data.getD i.toNat 0 = data[i.toNat] := by simp [h]
      rw [e]; exact h16 _ (List.getElem_mem h)
    · have e : data.getD i.toNat 0 = 0 := by simp [h]
      rw [e]; decide
  obtain ⟨fs, r', x', a1, a2, a3, a4, a5, a6⟩ := fade_law fp (arraySrcIs data) hv fuel ns.sum 0 b.rd b.src (le_refl 0) hph k1
    (fun j q hj hq c hcn => by
      obtain ⟨n1, n2, n3⟩ := needs_range hD hL hj hq
      rw [k4] at hcn
      have hq0 : 0 ≤ q := by have := hs.1; omega
      have hqF : q < F := by
        cases hu : up
        · have := hlast (Or.inl hu); have := hdown hu; omega
        · rcases n3 with n3 | n3
          · by_cases hp : t = .pingpong
            · have := hlast (Or.inr hp); omega
            · have := n2 hu (by simpa using hp); have := hup hu; omega
          · rw [hu] at n3; cases n3.1
      have hqE : q ≤ E + D := by omega
      have e1 := mul_le_mul_of_nonneg_right (show q + 1 ≤ (F : Int) by omega) (show (0 : Int) ≤ nch by omega)
      have e2 := mul_nonneg hq0 (show (0 : Int) ≤ nch by omega)
      have e3 := mul_le_mul_of_nonneg_left (show q + 1 ≤ E + D + 2 by omega) (show (0 : Int) ≤ nch by omega)
      have e4 : (q + 1) * (nch : Int) = q * nch + nch := by ring
      have e5 : (nch : Int) * (q + 1) = q * nch + nch := by ring
      have e6 : ((F * nch : Nat) : Int) ≤ data.length := by exact_mod_cast hlen
      push_cast at e6
      unfold Can InI32
      rw [k3, k4, zero_add, zero_mul, add_zero]
      exact ⟨by omega, by omega, by omega⟩)
  refine ⟨fs, ⟨r', x'⟩, readAll_full (arrayRead_eq k2 (by rw [k4]; omega) a1) a2, a2, fun k hk => ?_⟩
  obtain ⟨f, y1, y2, y3⟩ := a6 k hk
  refine ⟨f, y1, by rw [y2, k4, Int.toNat_natCast], fun c hcn => ?_⟩
  obtain ⟨v, z1, z2⟩ := y3 c (by rw [k4]; omega)
  refine ⟨v, z1, ?_⟩
  rw [k3, k4] at z2
  simp only [zero_add] at z2
  exact z2


/-- A dual-head reader that fades over two frames, starting at frame `s`. -/
def exFader (s : Int) (rate : ℚ) : ArrayReader :=
  { rd := { dual := true, cfDur := 2, playStart := .arbitrary, playbackStart := s, rate := rate } }

/-- Ten frames. -/
def exRamp : List Int := [0, 100, 200, 300, 400, 500, 600, 700, 800, 900]

/-- The hypotheses are met, upwards, downwards and to and fro. -/
example : ∃ fs a', readAll Fp.ieee 1 [4, 9] (((exFader 0 1).playRaw exRamp (10 : Nat) (1 : Nat)).2.loopOver .repeat 1 8) = .ok (fs, a') ∧
    fs.length = 13 ∧ ∀ k : Nat, k < 13 → ∃ f, fs[k]? = some f ∧ f.length = 1 ∧ ∀ c : Nat, c < 1 → ∃ v, f[c]? = some v ∧
      Sounds 2 (fun i => exRamp.getD (i * (1 : Nat) + c).toNat 0) (headsAt false 1 8 2 0 true k) v :=
  C73_fade_law_partial Fp.ieee 0 (exFader 0 1) exRamp (by decide) (by norm_num) (by norm_num) (by decide) (by norm_num) .repeat (D := 2) (s := 0)
    (by norm_num) (by norm_num) (by norm_num) (by norm_num) (by norm_num) (fun _ => by norm_num) (fun h => by cases h)
    (fun h => by rcases h with h | h <;> cases h) rfl rfl rfl rfl rfl rfl rfl [4, 9]

example : ∃ fs a', readAll Fp.ieee 1 [30] (((exFader 9 (-1)).playRaw exRamp (10 : Nat) (1 : Nat)).2.loopOver .pingpong 1 8) = .ok (fs, a') ∧
    fs.length = 30 ∧ ∀ k : Nat, k < 30 → ∃ f, fs[k]? = some f ∧ f.length = 1 ∧ ∀ c : Nat, c < 1 → ∃ v, f[c]? = some v ∧
      Sounds 2 (fun i => exRamp.getD (i * (1 : Nat) + c).toNat 0) (headsAt true 1 8 2 9 false k) v :=
  C73_fade_law_partial Fp.ieee 0 (exFader 9 (-1)) exRamp (by decide) (by norm_num) (by norm_num) (by decide) (by norm_num) .pingpong (D := 2) (s := 9)
    (by norm_num) (by norm_num) (by norm_num) (by norm_num) (by norm_num) (fun h => by cases h) (fun _ => by norm_num)
    (fun _ => by norm_num) rfl rfl rfl rfl rfl rfl rfl [30]

/-- The law in numbers: up to frame 5, then the fade from frames 6, 7, 8 to 1, 2, 3, and so on every five frames. -/
example : (List.range 13).map (fun k : Nat => headsAt false 1 8 2 0 true k) =
    [.one 0, .one 1, .one 2, .one 3, .one 4, .one 5, .two 0 6 1, .two 1 7 2, .two 2 8 3, .one 4, .one 5, .two 0 6 1, .two 1 7 2] := by
  decide

/-- To and fro, downwards from frame 9: the fade from 3, 2, 1 to 1, 2, 3, then, upwards, from 6, 7, 8 to 8, 7, 6. -/
example : (List.range 20).map (fun k : Nat => headsAt true 1 8 2 9 false k) =
    [.one 9, .one 8, .one 7, .one 6, .one 5, .one 4, .two 0 3 1, .two 1 2 2, .two 2 1 3, .one 4, .one 5,
     .two 0 6 8, .two 1 7 7, .two 2 8 6, .one 5, .one 4, .two 0 3 1, .two 1 2 2, .two 2 1 3, .one 4] := by
  decide

/-- What the reader delivers. -/
example : framesOf (readAll Fp.ideal 1 [13] (((exFader 0 1).playRaw exRamp 10 1).2.loopOver .repeat 1 8)) =
    .ok [[0], [100], [200], [300], [400], [500], [600], [450], [300], [400], [500], [600], [450]] := by
  decide +kernel

example : framesOf (readAll Fp.ideal 1 [13] (((exFader 9 (-1)).playRaw exRamp 10 1).2.loopOver .pingpong 1 8)) =
    .ok [[900], [800], [700], [600], [500], [400], [300], [200], [300], [400], [500], [600], [700]] := by
  decide +kernel

/-- **C73** does not hold for a loop that ends where the material ends, to and fro or downwards: the head fading in starts at the frame
after the last, which is read although its weight is still zero. -/
theorem C73_refuted : framesOf (readAll Fp.ideal 1 [8] (((exFader 0 1).playRaw exRamp 10 1).2.loopOver .pingpong 0 10)) =
      .ok [[0], [100], [200], [300], [400], [500], [600], [700]] ∧
    framesOf (readAll Fp.ideal 1 [9] (((exFader 0 1).playRaw exRamp 10 1).2.loopOver .pingpong 0 10)) = .error .outOfBounds ∧
    framesOf (readAll Fp.ideal 1 [8] (((exFader 9 (-1)).playRaw exRamp 10 1).2.loopOver .repeat 0 10)) = .error .outOfBounds ∧
    framesOf (readAll Fp.ideal 1 [9] (((exFader 0 1).playRaw exRamp 10 1).2.loopOver .repeat 0 10)) =
      .ok [[0], [100], [200], [300], [400], [500], [600], [700], [800]] := by
  decide +kernel

end TVP
