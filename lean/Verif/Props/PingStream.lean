import Verif.Lemmas.PingStart
import Verif.Props.LoopStreamRev

/-!
# Property C71: streaming a ping-pong loop has no dropouts
-/

namespace TVP
open Spec

/-- Settings for plain playback of a ping-pong loop, in either direction, at a rate of at most `R`. -/
structure PingSettings (fp : Fp) (r : Rd) (R : Int) : Prop where
  plain : PlainSettings r
  loop : r.loopType = .pingpong
  rateF : fp.f.rnd r.rate ≠ 0
  rateR : |r.rate| ≤ R
  flt : IsFloat 53 (-1074) r.rem
  frac : |r.rem| < 1

/-- Where playback of a file of `S` samples with header `H` and `nch` channels starts. -/
def StartsPingAt (r : Rd) (S H nch P : Int) : Prop :=
  if 0 ≤ r.rate then P = H + firstFrame r * nch else StartsBackAt r S H r.loopFinish nch P

/-- Where it turns on the way down: at the beginning of the loop, but when it was started at the beginning (or end) of the sound, at
the beginning of the sound (src/ResamplingReader.h:380-382). -/
def TurnsBelowAt (r : Rd) (H nch T : Int) : Prop :=
  T = if r.playStart = .sample then H else H + r.loopStart * nch

/-- A loop with at least as many blocks as there are buffers, the last frame played in its last block, and a speed for which an
update and one step more move by at most `mm` blocks, with at least `2 mm + 2` buffers. -/
def LongPing (g : Geo) (H nch A Z R : Int) : Prop :=
  (H + A * nch) / g.B + g.N - 1 ≤ (H + Z * nch) / g.B ∧ (H + (Z - nch) * nch) / g.B = (H + Z * nch) / g.B ∧
    ∃ mm, 2 * mm + 2 ≤ (g.N : Int) ∧ 129 * (nch * (R + 1)) ≤ mm * g.B

/-- The loop from frame `A` to frame `Z` lies in the file and is at least as many frames long as there are channels; playback turns
in the first block of the loop; it starts with a whole frame of the file, below the end of the loop when it goes up, in one block of
which half is in the file and not below where it turns when it goes down; and either the loop is long and there are as many blocks as
buffers ahead of the start, or the buffers filled at the start hold all of the loop. -/
structure GoodPing (g : Geo) (m : List Nat) (fwd : Prop) (H nch A Z T R P : Int) : Prop where
  A0 : 0 ≤ A
  AZ : A + nch ≤ Z
  file : 2 * (H + Z * nch) ≤ m.length
  speed : nch * (R + 1) ≤ 2 ^ 30
  turn : T / g.B = (H + A * nch) / g.B
  start : H ≤ P ∧ P + nch ≤ (m.length : Int) / 2 ∧ nch ∣ P - H
  upward : fwd → P < H + Z * nch ∧
    ((LongPing g H nch A Z R ∧ P / g.B + g.N - 1 ≤ (H + Z * nch) / g.B) ∨
     (P / g.B ≤ (H + A * nch) / g.B ∧ (H + Z * nch) / g.B ≤ P / g.B + g.N - 1 ∧ 2 * ((P / g.B + g.N - 2) * g.B) + g.B ≤ m.length))
  downward : ¬ fwd → T ≤ P ∧ (P + nch - 1) / g.B = P / g.B ∧ 2 * (P / g.B * g.B) + g.B ≤ m.length ∧
    ((LongPing g H nch A Z R ∧ (H + A * nch) / g.B + g.N - 1 ≤ P / g.B) ∨
     ((H + Z * nch) / g.B ≤ P / g.B ∧ P / g.B - g.N + 1 ≤ (H + A * nch) / g.B ∧ (g.N : Int) - 1 ≤ P / g.B))

/-- Speeds up to `R` frames per frame, not rounded to zero, in the direction in which the player is going at that moment; while the
sound plays, only where a change of speed does not move the position (C39). -/
def SpeedsPing (fp : Fp) (R : Int) (r : Rd) (v : ℚ) : Prop :=
  fp.f.rnd v ≠ 0 ∧ |v| ≤ R ∧ (0 < v ↔ 0 < r.rate) ∧ (r.playing = true → Inside r v)

theorem SpeedsPing.signs {fp : Fp} {R : Int} {r : Rd} {v : ℚ} (h : SpeedsPing fp R r v) (h0 : r.rate ≠ 0) :
    v ≠ 0 ∧ (v < 0 ↔ r.rate < 0) ∧ (0 < v → 0 < fp.f.rnd v) ∧ (v < 0 → fp.f.rnd v < 0) := by
  have hv : v ≠ 0 := fun e => h.1 (by rw [e]; exact fp.f.exact_zero)
  refine ⟨hv, ⟨fun h1 => ?_, fun h1 => ?_⟩, fun h1 => lt_of_le_of_ne (fp.f.nonneg (le_of_lt h1)) (Ne.symm h.1),
    fun h1 => lt_of_le_of_ne (fp.f.nonpos (le_of_lt h1)) h.1⟩
  · rcases lt_or_gt_of_ne h0 with h2 | h2
    · exact h2
    · exact absurd (h.2.2.1.2 h2) (not_lt.2 (le_of_lt h1))
  · rcases lt_or_gt_of_ne hv with h2 | h2
    · exact h2
    · exact absurd (h.2.2.1.1 h2) (not_lt.2 (le_of_lt h1))

theorem PP.speed {fp : Fp} {R S P E S0 X nch : Int} {r : Rd} {v : ℚ} (h : PP R S P E S0 X nch r) (hv : SpeedsPing fp R r v) :
    PP R S P E S0 X nch { r with rate := v } := by
  obtain ⟨h1, h2, _, _⟩ := hv.signs h.rate0
  exact ⟨⟨h.plain.dual, h.plain.interp, h.plain.cfOn, h.plain.nch⟩, h.loop, h1, hv.2.1, h.flt, h.frac, h.chans, h.bottom, h.wrap, h.top, h.grid,
    fun h3 => h.fwd (hv.2.2.1.1 h3), fun h3 => h.bwd (h2.1 h3)⟩

theorem Now.speed {fp : Fp} {R S P E : Int} {r : Rd} {v : ℚ} {u : Bool} {x : Int} (h0 : r.rate ≠ 0) (h : Now S P E r u x) (hv : SpeedsPing fp R r v) :
    Now S P E { r with rate := v } u x := by
  obtain ⟨_, h2, _, _⟩ := hv.signs h0
  have h3 := hv.2.2.1
  rcases h with ⟨k1, k2, k⟩ | ⟨k1, k2, k⟩ | ⟨k1, k2, k⟩ | ⟨k1, k2, k⟩
  · exact Or.inl ⟨k1, h3.2 k2, k⟩
  · exact Or.inr (Or.inl ⟨k1, h3.2 k2, k⟩)
  · exact Or.inr (Or.inr (Or.inl ⟨k1, h2.2 k2, k⟩))
  · exact Or.inr (Or.inr (Or.inr ⟨k1, h2.2 k2, k⟩))

theorem PingLive.speed {fp : Fp} {m : List Nat} {g : Geo} {mm R S P E S0 X nch M : Int} {r : Rd} {c : Cache} {v : ℚ}
    (h : PingLive fp m g mm R S P E S0 X nch M r c) (hv : SpeedsPing fp R r v) : PingLive fp m g mm R S P E S0 X nch M { r with rate := v } c := by
  obtain ⟨hr, hw, u, x, hx, hst⟩ := h
  obtain ⟨_, h2, h3, h4⟩ := hv.signs hr.rate0
  refine ⟨hr.speed hv, hw, u, x, hx.speed hr.rate0 hv, ?_⟩
  rcases hst with h | h | ⟨hp, h⟩
  · exact Or.inl h
  · exact Or.inr (Or.inl h)
  · refine Or.inr (Or.inr ⟨hp, ?_⟩)
    rcases h with ⟨k1, k2, _, k⟩ | ⟨k1, k2, _, k⟩
    · have := hv.2.2.1.2 k2
      exact Or.inl ⟨k1, this, h3 this, k⟩
    · have := h2.2 k2
      exact Or.inr ⟨k1, this, h4 this, k⟩

theorem ShortPing.speed {fp : Fp} {m : List Nat} {g : Geo} {R S P E S0 X nch M : Int} {r : Rd} {c : Cache} {v : ℚ}
    (h : ShortPing m g R S P E S0 X nch M r c) (hv : SpeedsPing fp R r v) : ShortPing m g R S P E S0 X nch M { r with rate := v } c :=
  ⟨h.rd.speed hv, h.win, h.len, h.bound, h.bottom, h.top, h.holds⟩

theorem ping_start {m : List Nat} {g : Geo} {fp : Fp} (hfp : Representable fp) (hB : g.B < 16384) (hNB : g.N * g.B ≤ 2 ^ 30)
    (hb : IsBytes m) (hm : m.length < 2 ^ 31) {R : Int} {r : Rd} {f : Dev} (hf : f.bytes = m)
    (hsz : r.fileSize = m.length) (hset : PingSettings fp r R) (hH : 0 ≤ r.header) (hn : 0 < r.nch) {P T : Int}
    (hP : StartsPingAt r ((m.length : Int) / 2) r.header r.nch P) (hT : TurnsBelowAt r r.header r.nch T)
    (hloop : GoodPing g m (0 ≤ r.rate) r.header r.nch r.loopStart r.loopFinish T R P)
    (nullOk : Bool) {fuel : Nat} (hfu : g.N ≤ fuel + 2) :
    ∃ a, playFinish g r f = .ok (true, a) ∧ a.rd.playing = true ∧ a.rd.loopType = .pingpong ∧ a.rd.nch = r.nch ∧ a.rd.header = r.header ∧
      a.rd.loopStart = r.loopStart ∧ a.rd.loopFinish = r.loopFinish ∧
      a.rd.pos1 = P ∧ a.rd.rate = r.rate ∧ a.rd.rem = r.rem ∧ LikeInMemoryAt fp g nullOk (fuel + 2) a m (SpeedsPing fp R) := by
  have hB0 : (0 : Int) < g.B := by exact_mod_cast g.B_pos
  have hNB' : (g.N : Int) * g.B ≤ 2 ^ 30 := by exact_mod_cast hNB
  obtain ⟨hA, hAZ, hE, hspeed, hturn, ⟨hHP, hPE, hgrid⟩, hup, hdown⟩ := hloop
  have hT' : turnBelow r = T := hT.symm
  have hR : 0 ≤ R := by
    have : (0 : ℚ) ≤ R := le_trans (abs_nonneg _) hset.rateR
    exact_mod_cast this
  have hR2 : R ≤ 2 ^ 30 := by
    have : R + 1 ≤ r.nch * (R + 1) := le_mul_of_one_le_left (by omega) (by omega)
    omega
  have hrate : r.rate ≠ 0 := fun h => hset.rateF (by rw [h]; exact fp.f.exact_zero)
  have hAn : 0 ≤ r.loopStart * r.nch := mul_nonneg hA (le_of_lt hn)
  have hPF : r.header + (r.loopFinish - r.nch) * r.nch + r.nch * r.nch = r.header + r.loopFinish * r.nch := by ring
  have hn1 : r.nch ≤ r.nch * r.nch := le_mul_of_one_le_left (le_of_lt hn) (by omega)
  have hSP : r.header + r.loopStart * r.nch ≤ r.header + (r.loopFinish - r.nch) * r.nch := by
    have := mul_le_mul_of_nonneg_right (show r.loopStart ≤ r.loopFinish - r.nch by omega) (le_of_lt hn)
    omega
  have hT1 : r.header ≤ T ∧ T ≤ r.header + r.loopStart * r.nch ∧ r.nch ∣ T - r.header := by
    unfold TurnsBelowAt at hT
    split at hT
    · rw [hT]; exact ⟨le_refl _, by omega, by simp⟩
    · rw [hT]; exact ⟨by omega, le_refl _, ⟨r.loopStart, by ring⟩⟩
  have hgrid2 : ∀ y, r.nch ∣ r.header + y * r.nch - T := fun y => by
    have h1 : r.nch ∣ y * r.nch := Dvd.intro_left y rfl
    have := dvd_sub h1 hT1.2.2
    rwa [show y * r.nch - (T - r.header) = r.header + y * r.nch - T by ring] at this
  have hP' : if 0 ≤ r.rate then P = r.header + firstFrame r * r.nch else backStart r ((m.length : Int) / 2) r.loopFinish = P := by
    unfold StartsPingAt at hP
    split
    · rename_i h; rw [if_pos h] at hP; exact hP
    · rename_i h; rw [if_neg h] at hP
      unfold backStart
      unfold StartsBackAt at hP
      cases hps : r.playStart <;> simp only [hps] at hP ⊢ <;> exact hP.symm
  obtain ⟨S0, hS0⟩ : ∃ S0, S0 = if 0 ≤ r.rate then min P T else T := ⟨_, rfl⟩
  obtain ⟨X, hX⟩ : ∃ X, X = if 0 ≤ r.rate then r.header + r.loopFinish * r.nch else max (P + r.nch) (r.header + r.loopFinish * r.nch) := ⟨_, rfl⟩
  obtain ⟨a, c, k1, k2, k3, k4, k4a, k4b, k4c, k5, k6, k7, k8, k9, k10, k11, k12⟩ := playFinish_ping (g := g) (P0 := P) (S0 := S0) (X := X) hm hf hsz hH hn
    hset.plain.dual hset.plain.interp hset.loop hrate hset.rateR hset.flt hset.frac hA hAZ hE hP' (by omega) hPE hgrid
    (fun h0 => by
      rw [hS0, if_pos (le_of_lt h0)]
      exact ⟨min_le_left _ _, le_of_lt (hup (le_of_lt h0)).1⟩)
    (fun h0 => by
      rw [hX, if_neg (not_le.2 h0), hT']
      exact ⟨(hdown (not_le.2 h0)).1, le_max_left _ _⟩)
  refine ⟨a, k1, k2, k3.loop, k3.chans, k4a, k4b, k4c, k4, k5, k6, ?_⟩
  rw [hT'] at k3
  have hnum : PPNum R T (r.header + (r.loopFinish - r.nch) * r.nch) (r.header + r.loopFinish * r.nch) S0 X r.nch := by
    refine ⟨hR, hR2, hn, ?_, ?_, by omega, by omega, ?_, hgrid2 _, hgrid2 _, ?_⟩
    · rw [hS0]; split
      · exact le_min (by omega) (by omega)
      · omega
    · rw [hS0]; split
      · exact min_le_right _ _
      · exact le_refl _
    · rw [hX]; split
      · exact le_refl _
      · exact le_max_right _ _
    · have : X ≤ (m.length : Int) / 2 := by
        rw [hX]; split
        · omega
        · exact max_le hPE (by omega)
      omega
  have hX2 : 2 * X ≤ m.length := by
    have : X ≤ (m.length : Int) / 2 := by
      rw [hX]; split
      · omega
      · exact max_le hPE (by omega)
    omega
  have hfin : (∃ Live : Rd → Cache → Prop, KeepsUp fp m g (fuel + 2) Live ∧ (Live a.rd (c.preLoad g P (decide (0 ≤ r.rate))) ∧
      (c.preLoad g P (decide (0 ≤ r.rate))).fails = 0) ∧ ∀ r c v, Live r c → SpeedsPing fp R r v → Live { r with rate := v } c) →
      LikeInMemoryAt fp g nullOk (fuel + 2) a m (SpeedsPing fp R) := by
    rintro ⟨Live, hk, ⟨hlive, hfl⟩, hs⟩
    exact likeAt_along hb hm hk (fun r' c' v hp hl hv => ⟨hv.2.2.2 hp, hs r' c' v hl hv⟩) (by rw [k3.chans]; exact hn) k7 hfl hlive
  apply hfin
  clear hfin
  clear hP hP' hf hsz hT hT' k1 k2 k4a k4b k4c k6 k7 hgrid hgrid2 hrate
  have hreach : Reached m g c := Reached.fresh' k8 k9
  obtain ⟨hTA, hTE⟩ : T ≤ r.header + r.loopStart * r.nch ∧ 0 ≤ T := ⟨hT1.2.1, by omega⟩
  obtain ⟨S, hSd⟩ : ∃ S, S = r.header + r.loopStart * r.nch := ⟨_, rfl⟩
  obtain ⟨W, hWd⟩ : ∃ W, W = r.header + (r.loopFinish - r.nch) * r.nch := ⟨_, rfl⟩
  obtain ⟨E, hEd⟩ : ∃ E, E = r.header + r.loopFinish * r.nch := ⟨_, rfl⟩
  unfold LongPing at hup hdown
  rw [← hSd] at hup hdown hturn k12
  rw [← hEd] at hup hdown hE hnum k3 k12 hX
  rw [← hWd] at hnum k3 hup hdown
  have hs0 : 0 ≤ T / g.B := Int.ediv_nonneg hTE (le_of_lt hB0)
  have hP0 : 0 ≤ P / g.B := Int.ediv_nonneg (by omega) (le_of_lt hB0)
  rw [← hturn] at hup hdown k12
  have hPm : P / g.B ≤ (m.length : Int) / 2 / g.B := Int.ediv_le_ediv hB0 (by omega)
  have hFm : E / g.B ≤ (m.length : Int) / 2 / g.B := Int.ediv_le_ediv hB0 (by omega)
  have hmax : ((m.length : Int) / 2 / g.B + 1) * g.B ≤ 2147483647 := by
    have := Int.ediv_mul_le ((m.length : Int) / 2) (ne_of_gt hB0)
    rw [add_mul, one_mul]; omega
  have hrate : a.rd.rate = r.rate := k5
  by_cases h0 : 0 ≤ r.rate
  · rw [decide_eq_true h0]
    rw [if_pos h0] at hS0 hX
    have hpos : 0 < a.rd.rate := by rw [hrate]; exact lt_of_le_of_ne h0 (fun h => hset.rateF (by rw [← h]; exact fp.f.exact_zero))
    have hposF : 0 < fp.f.rnd a.rd.rate := by rw [hrate]; exact lt_of_le_of_ne (fp.f.nonneg h0) (Ne.symm hset.rateF)
    obtain ⟨hPE', hcase⟩ := hup h0
    rcases hcase with ⟨⟨hl1, hl2, mm, hmm, hadv⟩, hw⟩ | ⟨hl1, hl2, hl3⟩
    · have hfull : 2 * ((P / g.B + g.N - 2) * g.B) + g.B ≤ m.length := by
        have h1 := mul_le_mul_of_nonneg_right (show P / g.B + g.N - 2 + 1 ≤ E / g.B by omega) (le_of_lt hB0)
        have h2 := Int.ediv_mul_le E (ne_of_gt hB0)
        rw [add_mul, one_mul] at h1
        omega
      obtain ⟨w1, w2, w3, w4⟩ := PWin.preLoadUp (m := m) (g := g) (by omega) hreach k9 k12 (i := P) (by omega) (by omega) hfull
      refine ⟨PingLive fp m g mm R T W E S0 X r.nch ((m.length : Int) / 2 / g.B), PingLive.keepsUp hfp
        ⟨hnum, hB, hX2, hm, hmm, hadv, hl1, hl2, hFm, hmax⟩ hfu, ⟨⟨k3, w1, true, P, Or.inl ⟨rfl, hpos, by rw [k4]; exact hPE', k4.symm⟩, ?_⟩, w4.trans k10⟩, fun _ _ _ h hv => h.speed hv⟩
      exact Or.inr (Or.inr ⟨w3.trans k11, Or.inl ⟨rfl, hpos, hposF, _, w2, hP0, hw, rfl⟩⟩)
    · obtain ⟨w1, w2, w3, w4⟩ := PWin.preLoadUp (m := m) (g := g) (by omega) hreach k9 k12 (i := P) (by omega) (by omega) hl3
      refine ⟨ShortPing m g R T W E S0 X r.nch (P / g.B + g.N), ShortPing.keepsUp hfp hB hm hnum hX2 ?_ (by omega),
        ⟨⟨k3, w1, ?_, ?_, ?_, ?_, ?_⟩, w4.trans k10⟩, fun _ _ _ h hv => h.speed hv⟩
      · have h1 := Int.ediv_le_self (g.B : Int) (show 0 ≤ P by omega)
        have h2 : (g.N : Int) ≤ g.N * g.B := le_mul_of_one_le_right (by omega) (by omega)
        omega
      · have := congrArg List.length w2
        rwa [List.length_map, up_length] at this
      · intro k hk
        rw [w2, mem_up] at hk
        omega
      · rw [w2, mem_up]
        have : T / g.B ≤ E / g.B := Int.ediv_le_ediv hB0 (by have := hnum.SP; have := hnum.PE; omega)
        omega
      · rw [w2, mem_up]
        have : T / g.B ≤ E / g.B := Int.ediv_le_ediv hB0 (by have := hnum.SP; have := hnum.PE; omega)
        omega
      · intro k h1 h2
        rw [w2, mem_up]
        have h3 : P / g.B ≤ S0 / g.B := by
          rw [hS0]
          rcases min_choice P T with h | h <;> rw [h]
          exact hl1
        have h4 : (X - 1) / g.B ≤ E / g.B := by rw [hX]; exact Int.ediv_le_ediv hB0 (by omega)
        omega
  · rw [decide_eq_false h0]
    rw [if_neg h0] at hS0 hX
    have hneg : a.rd.rate < 0 := by rw [hrate]; exact not_le.1 h0
    have hnegF : fp.f.rnd a.rd.rate < 0 := by rw [hrate]; exact lt_of_le_of_ne (fp.f.nonpos (le_of_lt (not_le.1 h0))) hset.rateF
    obtain ⟨hTP, hblock, hhalf, hcase⟩ := hdown h0
    rcases hcase with ⟨⟨hl1, hl2, mm, hmm, hadv⟩, hw⟩ | ⟨hl1, hl2, hl3⟩
    · obtain ⟨w1, w2, w3, w4⟩ := PWin.preLoadDown (m := m) (g := g) (by omega) hreach k9 k12 (i := P) (by omega) (by omega) hhalf (by omega)
      refine ⟨PingLive fp m g mm R T W E S0 X r.nch ((m.length : Int) / 2 / g.B), PingLive.keepsUp hfp
        ⟨hnum, hB, hX2, hm, hmm, hadv, hl1, hl2, hFm, hmax⟩ hfu,
        ⟨⟨k3, w1, false, P, Or.inr (Or.inr (Or.inl ⟨rfl, hneg, by rw [k4]; exact hTP, k4.symm⟩)), ?_⟩, w4.trans k10⟩, fun _ _ _ h hv => h.speed hv⟩
      exact Or.inr (Or.inr ⟨w3.trans k11, Or.inr ⟨rfl, hneg, hnegF, _, w2, hPm, by omega, hblock⟩⟩)
    · obtain ⟨w1, w2, w3, w4⟩ := PWin.preLoadDown (m := m) (g := g) (by omega) hreach k9 k12 (i := P) (by omega) (by omega) hhalf (by omega)
      have hTE' : T / g.B ≤ E / g.B := Int.ediv_le_ediv hB0 (by have := hnum.SP; have := hnum.PE; omega)
      refine ⟨ShortPing m g R T W E S0 X r.nch (P / g.B), ShortPing.keepsUp hfp hB hm hnum hX2 ?_ (by omega),
        ⟨⟨k3, w1, ?_, ?_, ?_, ?_, ?_⟩, w4.trans k10⟩, fun _ _ _ h hv => h.speed hv⟩
      · have h1 := Int.ediv_le_self (g.B : Int) (show 0 ≤ P by omega)
        omega
      · have := congrArg List.length w2
        rwa [List.length_map, down_length] at this
      · intro k hk
        rw [w2, mem_down] at hk
        omega
      · rw [w2, mem_down]; omega
      · rw [w2, mem_down]; omega
      · intro k h1 h2
        rw [w2, mem_down]
        rw [hS0] at h1
        have h4 : (X - 1) / g.B ≤ P / g.B := by
          rw [hX]
          rcases max_choice (P + r.nch) E with h | h <;> rw [h]
          · rw [hblock]
          · exact le_trans (Int.ediv_le_ediv hB0 (by omega)) hl1
        omega

/-- What `play` keeps of the settings made before. -/
structure Kept (r r1 : Rd) : Prop where
  loop : r1.loopType = r.loopType
  ls : r1.loopStart = r.loopStart
  lf : r1.loopFinish = r.loopFinish
  start : r1.playStart = r.playStart
  pstart : r1.playbackStart = r.playbackStart
  rate : r1.rate = r.rate
  rem : r1.rem = r.rem
  dual : r1.dual = r.dual
  interp : r1.interp = r.interp

theorem setNumChannels_kept (r : Rd) (n : Int) : Kept r (r.setNumChannels n) := by
  unfold Rd.setNumChannels
  split <;> exact ⟨rfl, rfl, rfl, rfl, rfl, rfl, rfl, rfl, rfl⟩

/-- `playRaw` up to the opening of the file. -/
theorem raw_prep (g : Geo) (a : FileReader) {m : List Nat} (hm : m.length < 2 ^ 31) (past : Bool) {nch : Nat} (hc : 1 ≤ nch) (hc' : nch ≤ 32767) :
    ∃ r1, a.playRaw g (some ⟨m, 0, past⟩) nch = playFinish g r1 ⟨m, 0, past⟩ ∧ Kept a.rd r1 ∧ r1.nch = nch ∧ r1.header = a.rd.header ∧
      r1.fileSize = m.length := by
  have hk := setNumChannels_kept a.close.rd nch
  obtain ⟨s1, _⟩ := setNumChannels_rest a.close.rd nch
  have hn := setNumChannels_nch_small a.close.rd (n := nch) (by omega) (by omega)
  have hsz : i32 (m.length : Int) = m.length := by unfold i32; omega
  unfold FileReader.playRaw FileReader.playFile
  simp only [Bool.false_eq_true, if_false, Dev.size]
  rw [hsz]
  generalize a.close.rd.setNumChannels nch = r0 at *
  exact ⟨_, rfl, ⟨hk.loop, hk.ls, hk.lf, hk.start, hk.pstart, hk.rate, hk.rem, hk.dual, hk.interp⟩, hn, s1, rfl⟩

/-- `playWav` up to the opening of the file. -/
theorem wav_prep (g : Geo) (a : FileReader) {m : List Nat} (hb : IsBytes m) (hm : m.length < 2 ^ 31) (past : Bool) (junk : List Nat)
    (hj : junk.length = 36) (hg : GoodHeader m) (hdep : leVal (slice m 34 2) = 16) {off : Nat} (hda : DataAt m off) {nch : Nat}
    (hn : leVal (slice m 22 2) = nch) (hc : 1 ≤ nch) (hc' : nch ≤ 32767) :
    ∃ r1 f', a.playWav g (some ⟨m, 0, past⟩) junk = playFinish g r1 f' ∧ f'.bytes = m ∧ Kept a.rd r1 ∧ r1.nch = nch ∧
      r1.header = ((off + 8) / 2 : Nat) ∧ r1.fileSize = m.length := by
  have hsz : i32 (m.length : Int) = m.length := by unfold i32; omega
  obtain ⟨f', hp, hfb, _⟩ := playParseWav_good
    (r := { a.close.rd with fileSize := i32 (m.length : Int) }) (past := past) hj hb hm hg hdep hda
  have hch : u16 (parsed m).numChannels = nch := by
    simp only [parsed]; rw [u16_i16, hn]; unfold u16; omega
  rw [hch] at hp
  have hk := setNumChannels_kept { a.close.rd with fileSize := i32 (m.length : Int) } nch
  obtain ⟨_, _, _, _, _, s6⟩ := setNumChannels_rest { a.close.rd with fileSize := i32 (m.length : Int) } nch
  have hn' := setNumChannels_nch_small { a.close.rd with fileSize := i32 (m.length : Int) } (n := nch) (by omega) (by omega)
  simp only at s6
  have s6' := s6.trans hsz
  clear s6
  unfold FileReader.playWav FileReader.playFile
  simp only [if_true, Dev.size]
  rw [hp]
  simp only [ok_bind, Bool.not_true, Bool.false_eq_true, if_false]
  clear hp
  generalize Rd.setNumChannels { a.close.rd with fileSize := i32 (m.length : Int) } nch = r0 at *
  exact ⟨_, f', rfl, hfb, ⟨hk.loop, hk.ls, hk.lf, hk.start, hk.pstart, hk.rate, hk.rem, hk.dual, hk.interp⟩, hn', rfl, s6'⟩

theorem PingSettings.kept {fp : Fp} {r r1 : Rd} {R : Int} (h : PingSettings fp r R) (k : Kept r r1) : PingSettings fp r1 R :=
  ⟨⟨k.dual.trans h.plain.dual, k.interp.trans h.plain.interp⟩, k.loop.trans h.loop, by rw [k.rate]; exact h.rateF, by rw [k.rate]; exact h.rateR,
    by rw [k.rem]; exact h.flt, by rw [k.rem]; exact h.frac⟩

theorem ping_kept {fp : Fp} {g : Geo} {m : List Nat} (hfp : Representable fp) (hB : g.B < 16384) (hNB : g.N * g.B ≤ 2 ^ 30)
    (hb : IsBytes m) (hm : m.length < 2 ^ 31) {R : Int} {r r1 : Rd} {f : Dev} (hf : f.bytes = m) {nch : Nat} (hc : 1 ≤ nch) (hset : PingSettings fp r R)
    (k : Kept r r1) (hn : r1.nch = nch) {H : Int} (hH0 : 0 ≤ H) (hh : r1.header = H) (hs : r1.fileSize = m.length) {P T : Int}
    (hP : StartsPingAt r ((m.length : Int) / 2) H nch P) (hT : TurnsBelowAt r H nch T)
    (hloop : GoodPing g m (0 ≤ r.rate) H nch r.loopStart r.loopFinish T R P) (nullOk : Bool) {fuel : Nat} (hfu : g.N ≤ fuel + 2) :
    ∃ a', playFinish g r1 f = .ok (true, a') ∧ a'.rd.playing = true ∧ a'.rd.loopType = .pingpong ∧ a'.rd.nch = nch ∧ a'.rd.header = H ∧
      a'.rd.loopStart = r.loopStart ∧ a'.rd.loopFinish = r.loopFinish ∧ a'.rd.pos1 = P ∧ a'.rd.rate = r.rate ∧
      a'.rd.rem = r.rem ∧ LikeInMemoryAt fp g nullOk (fuel + 2) a' m (SpeedsPing fp R) := by
  obtain ⟨a', k1, k2, k3, k4, k5, k6, k7, k8, k9, k10, k11⟩ := ping_start (r := r1) (f := f) (P := P) (T := T) hfp hB hNB hb hm hf hs (hset.kept k)
    (by rw [hh]; exact hH0) (by rw [hn]; omega)
    (by unfold StartsPingAt StartsBackAt firstFrame at hP ⊢; rw [k.rate, k.start, k.pstart, k.ls, k.lf, hh, hn]; exact hP)
    (by unfold TurnsBelowAt at hT ⊢; rw [k.start, k.ls, hh, hn]; exact hT) (by rw [k.rate, k.ls, k.lf, hh, hn]; exact hloop) nullOk hfu
  exact ⟨a', k1, k2, k3, k4.trans hn, k5.trans hh, k6.trans k.ls, k7.trans k.lf, k8, k9.trans k.rate, k10.trans k.rem, k11⟩

/-- **C72** (ping-pong loops, raw files).  C71 when the program changes the speed between updates, in the direction of the moment. -/
theorem C72_ping_raw_partial (fp : Fp) (hfp : Representable fp) (g : Geo) (hB : g.B < 16384) (hNB : g.N * g.B ≤ 2 ^ 30) (a : FileReader) {m : List Nat}
    (hb : IsBytes m) (hm : m.length < 2 ^ 31) (past : Bool) {nch : Nat} (hc : 1 ≤ nch) (hc' : nch ≤ 32767) {R : Int}
    (hset : PingSettings fp a.rd R) (hhead : a.rd.header = 0) {P T : Int}
    (hP : StartsPingAt a.rd ((m.length : Int) / 2) 0 nch P) (hT : TurnsBelowAt a.rd 0 nch T)
    (hloop : GoodPing g m (0 ≤ a.rd.rate) 0 nch a.rd.loopStart a.rd.loopFinish T R P) (nullOk : Bool) {fuel : Nat} (hf : g.N ≤ fuel + 2) :
    ∃ a', a.playRaw g (some ⟨m, 0, past⟩) nch = .ok (true, a') ∧ a'.rd.playing = true ∧ a'.rd.loopType = .pingpong ∧ a'.rd.nch = nch ∧ a'.rd.header = 0 ∧
      a'.rd.loopStart = a.rd.loopStart ∧ a'.rd.loopFinish = a.rd.loopFinish ∧ a'.rd.pos1 = P ∧ a'.rd.rate = a.rd.rate ∧
      a'.rd.rem = a.rd.rem ∧ LikeInMemoryAt fp g nullOk (fuel + 2) a' m (SpeedsPing fp R) := by
  obtain ⟨r1, e1, e2, e3, e4, e5⟩ := raw_prep g a hm past hc hc'
  rw [e1]
  exact ping_kept hfp hB hNB hb hm rfl hc hset e2 e3 (le_refl 0) (e4.trans hhead) e5 hP hT hloop nullOk hf

/-- **C71** (raw files, what does hold).  Playing a raw file, forwards or backwards, with a ping-pong loop set beforehand, without
interpolation, is the same as playing it from memory, for ever: long loops at any rate up to `R` for which an update moves by at
most `mm` blocks, with at least `2 mm + 2` buffers, and loops held in the buffers at any rate, however often they turn.  Missing are
the loops and starts excluded by `GoodPing`; see the refutations below. -/
theorem C71_raw_partial (fp : Fp) (hfp : Representable fp) (g : Geo) (hB : g.B < 16384) (hNB : g.N * g.B ≤ 2 ^ 30) (a : FileReader) {m : List Nat}
    (hb : IsBytes m) (hm : m.length < 2 ^ 31) (past : Bool) {nch : Nat} (hc : 1 ≤ nch) (hc' : nch ≤ 32767) {R : Int}
    (hset : PingSettings fp a.rd R) (hhead : a.rd.header = 0) {P T : Int}
    (hP : StartsPingAt a.rd ((m.length : Int) / 2) 0 nch P) (hT : TurnsBelowAt a.rd 0 nch T)
    (hloop : GoodPing g m (0 ≤ a.rd.rate) 0 nch a.rd.loopStart a.rd.loopFinish T R P) (nullOk : Bool) {fuel : Nat} (hf : g.N ≤ fuel + 2) :
    ∃ a', a.playRaw g (some ⟨m, 0, past⟩) nch = .ok (true, a') ∧ a'.rd.playing = true ∧ a'.rd.loopType = .pingpong ∧ a'.rd.nch = nch ∧ a'.rd.header = 0 ∧
      a'.rd.loopStart = a.rd.loopStart ∧ a'.rd.loopFinish = a.rd.loopFinish ∧ a'.rd.pos1 = P ∧ a'.rd.rate = a.rd.rate ∧
      a'.rd.rem = a.rd.rem ∧ LikeInMemory fp g nullOk (fuel + 2) a' m := by
  obtain ⟨a', h0, h1, h2, h3, h4, h5, h6, h7, h8, h9, h⟩ := C72_ping_raw_partial fp hfp g hB hNB a hb hm past hc hc' hset hhead hP hT hloop nullOk hf
  exact ⟨a', h0, h1, h2, h3, h4, h5, h6, h7, h8, h9, h.plain⟩

/-- **C72** (ping-pong loops, WAV files).  Likewise. -/
theorem C72_ping_wav_partial (fp : Fp) (hfp : Representable fp) (g : Geo) (hB : g.B < 16384) (hNB : g.N * g.B ≤ 2 ^ 30) (a : FileReader) {m : List Nat}
    (hb : IsBytes m) (hm : m.length < 2 ^ 31) (past : Bool) (junk : List Nat) (hj : junk.length = 36) (hg : GoodHeader m)
    (hdep : leVal (slice m 34 2) = 16) {off : Nat} (hda : DataAt m off) {nch : Nat} (hn : leVal (slice m 22 2) = nch) (hc : 1 ≤ nch) (hc' : nch ≤ 32767)
    {R : Int} (hset : PingSettings fp a.rd R) {P T : Int}
    (hP : StartsPingAt a.rd ((m.length : Int) / 2) ((off + 8) / 2 : Nat) nch P) (hT : TurnsBelowAt a.rd ((off + 8) / 2 : Nat) nch T)
    (hloop : GoodPing g m (0 ≤ a.rd.rate) ((off + 8) / 2 : Nat) nch a.rd.loopStart a.rd.loopFinish T R P) (nullOk : Bool) {fuel : Nat}
    (hf : g.N ≤ fuel + 2) :
    ∃ a', a.playWav g (some ⟨m, 0, past⟩) junk = .ok (true, a') ∧ a'.rd.playing = true ∧ a'.rd.loopType = .pingpong ∧ a'.rd.nch = nch ∧
      a'.rd.header = ((off + 8) / 2 : Nat) ∧ a'.rd.loopStart = a.rd.loopStart ∧ a'.rd.loopFinish = a.rd.loopFinish ∧
      a'.rd.pos1 = P ∧ a'.rd.rate = a.rd.rate ∧ a'.rd.rem = a.rd.rem ∧ LikeInMemoryAt fp g nullOk (fuel + 2) a' m (SpeedsPing fp R) := by
  obtain ⟨r1, f', e1, e0, e2, e3, e4, e5⟩ := wav_prep g a hb hm past junk hj hg hdep hda hn hc hc'
  rw [e1]
  exact ping_kept hfp hB hNB hb hm e0 hc hset e2 e3 (Int.natCast_nonneg _) e4 e5 hP hT hloop nullOk hf

/-- **C71** (WAV files, what does hold).  The same for WAV files. -/
theorem C71_wav_partial (fp : Fp) (hfp : Representable fp) (g : Geo) (hB : g.B < 16384) (hNB : g.N * g.B ≤ 2 ^ 30) (a : FileReader) {m : List Nat}
    (hb : IsBytes m) (hm : m.length < 2 ^ 31) (past : Bool) (junk : List Nat) (hj : junk.length = 36) (hg : GoodHeader m)
    (hdep : leVal (slice m 34 2) = 16) {off : Nat} (hda : DataAt m off) {nch : Nat} (hn : leVal (slice m 22 2) = nch) (hc : 1 ≤ nch) (hc' : nch ≤ 32767)
    {R : Int} (hset : PingSettings fp a.rd R) {P T : Int}
    (hP : StartsPingAt a.rd ((m.length : Int) / 2) ((off + 8) / 2 : Nat) nch P) (hT : TurnsBelowAt a.rd ((off + 8) / 2 : Nat) nch T)
    (hloop : GoodPing g m (0 ≤ a.rd.rate) ((off + 8) / 2 : Nat) nch a.rd.loopStart a.rd.loopFinish T R P) (nullOk : Bool) {fuel : Nat}
    (hf : g.N ≤ fuel + 2) :
    ∃ a', a.playWav g (some ⟨m, 0, past⟩) junk = .ok (true, a') ∧ a'.rd.playing = true ∧ a'.rd.loopType = .pingpong ∧ a'.rd.nch = nch ∧
      a'.rd.header = ((off + 8) / 2 : Nat) ∧ a'.rd.loopStart = a.rd.loopStart ∧ a'.rd.loopFinish = a.rd.loopFinish ∧
      a'.rd.pos1 = P ∧ a'.rd.rate = a.rd.rate ∧ a'.rd.rem = a.rd.rem ∧ LikeInMemory fp g nullOk (fuel + 2) a' m := by
  obtain ⟨a', h0, h1, h2, h3, h4, h5, h6, h7, h8, h9, h⟩ := C72_ping_wav_partial fp hfp g hB hNB a hb hm past junk hj hg hdep hda hn hc hc' hset hP hT hloop nullOk hf
  exact ⟨a', h0, h1, h2, h3, h4, h5, h6, h7, h8, h9, h.plain⟩

/-! ## Examples -/

/-- A player set to go to and fro between frames 500 and `z` at the given rate, starting at the given frame. -/
def exPing (v : ℚ) (z q : Int) : FileReader := { rd := { rate := v, loopType := .pingpong, loopStart := 500, loopFinish := z, playStart := .arbitrary, playbackStart := q } }

theorem exPing_settings {v : ℚ} {R : Int} (hv : Fp.ieee.f.rnd v ≠ 0) (hR : |v| ≤ R) (z q : Int) : PingSettings Fp.ieee (exPing v z q).rd R :=
  ⟨⟨rfl, rfl⟩, rfl, hv, hR, by
    show IsFloat 53 (-1074) 0
    simpa using Rounding.isFloat_of (p := 53) (emin := -1074) (by norm_num) (m := 0) (e := 0) (by norm_num) (by norm_num), by norm_num [exPing]⟩

/-- A long loop in a stereo file of 100000 bytes, from the beginning of the file. -/
example : ∃ a', (exPing (3 / 2) 20000 7).playRaw sdGeo (some ⟨List.replicate 100000 5, 0, false⟩) (2 : Nat) = .ok (true, a') ∧ a'.rd.playing = true ∧
    a'.rd.loopType = .pingpong ∧ a'.rd.nch = (2 : Nat) ∧ a'.rd.header = 0 ∧ a'.rd.loopStart = 500 ∧ a'.rd.loopFinish = 20000 ∧ a'.rd.pos1 = 14 ∧
    a'.rd.rate = 3 / 2 ∧ a'.rd.rem = 0 ∧ LikeInMemory Fp.ieee sdGeo true (6 + 2) a' (List.replicate 100000 5) :=
  C71_raw_partial Fp.ieee ieee_representable sdGeo (by decide) (by decide) (exPing (3 / 2) 20000 7) (by intro b hb; rw [(List.mem_replicate.1 hb).2]; decide)
    (by rw [List.length_replicate]; decide) false (by decide) (by decide) (exPing_settings (by decide +kernel) (by norm_num) _ _) rfl (R := 2)
    (P := 14) (T := 1000) (by unfold StartsPingAt; rw [if_pos (by norm_num [exPing])]; decide) (by unfold TurnsBelowAt; decide)
    ⟨by decide, by decide, by rw [List.length_replicate]; decide, by decide, by decide, ⟨by decide, by rw [List.length_replicate]; decide, by decide⟩,
      fun _ => ⟨by decide, Or.inl ⟨⟨by decide, by decide, 1, by decide, by decide⟩, by decide⟩⟩, fun h => absurd (by norm_num [exPing]) h⟩ true (by decide)

/-- The same loop backwards, from above it. -/
example : ∃ a', (exPing (-3 / 2) 20000 24000).playRaw sdGeo (some ⟨List.replicate 100000 5, 0, false⟩) (2 : Nat) = .ok (true, a') ∧ a'.rd.playing = true ∧
    a'.rd.loopType = .pingpong ∧ a'.rd.nch = (2 : Nat) ∧ a'.rd.header = 0 ∧ a'.rd.loopStart = 500 ∧ a'.rd.loopFinish = 20000 ∧ a'.rd.pos1 = 48000 ∧
    a'.rd.rate = -3 / 2 ∧ a'.rd.rem = 0 ∧ LikeInMemory Fp.ieee sdGeo true (6 + 2) a' (List.replicate 100000 5) :=
  C71_raw_partial Fp.ieee ieee_representable sdGeo (by decide) (by decide) (exPing (-3 / 2) 20000 24000) (by intro b hb; rw [(List.mem_replicate.1 hb).2]; decide)
    (by rw [List.length_replicate]; decide) false (by decide) (by decide) (exPing_settings (by decide +kernel) (by norm_num [abs_of_neg]) _ _) rfl (R := 2)
    (P := 48000) (T := 1000) (by unfold StartsPingAt; rw [if_neg (by norm_num [exPing])]; show (48000 : Int) = _; decide) (by unfold TurnsBelowAt; decide)
    ⟨by decide, by decide, by rw [List.length_replicate]; decide, by decide, by decide, ⟨by decide, by rw [List.length_replicate]; decide, by decide⟩,
      fun h => absurd h (by norm_num [exPing]), fun _ => ⟨by decide, by decide, by rw [List.length_replicate]; decide,
        Or.inl ⟨⟨by decide, by decide, 1, by decide, by decide⟩, by decide⟩⟩⟩ true (by decide)

/-- A loop of ten frames at a rate of a thousand: it turns at every step. -/
example : ∃ a', (exPing 1000 510 500).playRaw sdGeo (some ⟨List.replicate 40000 5, 0, false⟩) (1 : Nat) = .ok (true, a') ∧ a'.rd.playing = true ∧
    a'.rd.loopType = .pingpong ∧ a'.rd.nch = (1 : Nat) ∧ a'.rd.header = 0 ∧ a'.rd.loopStart = 500 ∧ a'.rd.loopFinish = 510 ∧ a'.rd.pos1 = 500 ∧
    a'.rd.rate = 1000 ∧ a'.rd.rem = 0 ∧ LikeInMemory Fp.ieee sdGeo true (6 + 2) a' (List.replicate 40000 5) :=
  C71_raw_partial Fp.ieee ieee_representable sdGeo (by decide) (by decide) (exPing 1000 510 500) (by intro b hb; rw [(List.mem_replicate.1 hb).2]; decide)
    (by rw [List.length_replicate]; decide) false (by decide) (by decide) (exPing_settings (by decide +kernel) (by norm_num) _ _) rfl (R := 1000)
    (P := 500) (T := 500) (by unfold StartsPingAt; rw [if_pos (by norm_num [exPing])]; decide) (by unfold TurnsBelowAt; decide)
    ⟨by decide, by decide, by rw [List.length_replicate]; decide, by decide, by decide, ⟨by decide, by rw [List.length_replicate]; decide, by decide⟩,
      fun _ => ⟨by decide, Or.inr ⟨by decide, by decide, by rw [List.length_replicate]; decide⟩⟩, fun h => absurd (by norm_num [exPing]) h⟩ true (by decide)

/-- The stereo WAV file of 40056 bytes. -/
example : ∃ a', (exPing (-3 / 2) 9000 8400).playWav sdGeo (some ⟨exLongWav, 0, false⟩) (List.replicate 36 7) = .ok (true, a') ∧ a'.rd.playing = true ∧
    a'.rd.loopType = .pingpong ∧ a'.rd.nch = (2 : Nat) ∧ a'.rd.header = ((48 + 8) / 2 : Nat) ∧ a'.rd.loopStart = 500 ∧ a'.rd.loopFinish = 9000 ∧
    a'.rd.pos1 = 16828 ∧ a'.rd.rate = -3 / 2 ∧ a'.rd.rem = 0 ∧ LikeInMemory Fp.ieee sdGeo true (6 + 2) a' exLongWav :=
  C71_wav_partial Fp.ieee ieee_representable sdGeo (by decide) (by decide) (exPing (-3 / 2) 9000 8400) exLongWav_bytes (by rw [exLongWav_length]; decide) false
    (List.replicate 36 7) (by decide) (by decide +kernel) (by decide +kernel) (off := 48)
    ⟨Or.inr ⟨by decide +kernel, by decide +kernel⟩, by decide +kernel, by rw [exLongWav_length]; decide⟩ (nch := 2) (by decide +kernel) (by decide) (by decide)
    (exPing_settings (by decide +kernel) (by norm_num [abs_of_neg]) _ _) (R := 2)
    (P := 16828) (T := 1028) (by unfold StartsPingAt; rw [if_neg (by norm_num [exPing])]; show (16828 : Int) = _; decide) (by unfold TurnsBelowAt; decide)
    ⟨by decide, by decide, by rw [exLongWav_length]; decide, by decide, by decide, ⟨by decide, by rw [exLongWav_length]; decide, by decide⟩,
      fun h => absurd h (by norm_num [exPing]), fun _ => ⟨by decide, by decide, by rw [exLongWav_length]; decide,
        Or.inl ⟨⟨by decide, by decide, 1, by decide, by decide⟩, by decide⟩⟩⟩ true (by decide)

/-! ## Where it fails -/

/-- Seven blocks of 256 samples. -/
def pingGeo : Geo := ⟨8, 7, fun _ => []⟩

/-- What `n` updates of a player with seven blocks of 256 samples do after starting a mono file of `len` bytes `b` at twice the speed,
to and fro between the frames `s` and `z`: how often they find a sample not buffered. -/
def exPingMisses (len b : Nat) (s z : Int) (start : PlayStart) (q : Int) (n : Nat) : M (Option Nat) := do
  let (_, a) ← ({ rd := { loopType := .pingpong, loopStart := s, loopFinish := z, rate := 2, playStart := start, playbackStart := q } } : FileReader).playRaw pingGeo
    (some ⟨List.replicate len b, 0, false⟩) 1
  let (_, a) ← a.ticks Fp.ideal pingGeo true 8 (List.replicate n fun _ => true)
  return a.src.map (·.fails)

/-- **C71** is violated when the loop ends with a block: samples 0 to 2048, eight blocks of a file of 2500 samples.  The seven updates
after the first eight are served by what is still buffered, but the order of the buffers is never reversed: none of the samples read
by the next update are buffered.  (For the loop that is one sample longer `C71_raw_partial` holds.) -/
theorem C71_boundary_refuted : exPingMisses 5000 1 0 2048 .loop 0 15 = .ok (some 128) := by
  decide +kernel

/-- **C71** is violated when playback starts fewer blocks before the end of the loop than there are buffers: samples 0 to 2320 of a
file of 5000, from sample 2048.  After the first turn the third update misses 112 samples. -/
theorem C71_start_refuted : exPingMisses 10000 1 0 2320 .arbitrary 2048 3 = .ok (some 112) := by
  decide +kernel

/-- **C71** is violated when playback starts at the beginning of the sound and the loop begins in a later block: samples 512 to
2320.  The player goes all the way back to sample 0, for which the buffers are not loaded. -/
theorem C71_sample_refuted : exPingMisses 10000 1 512 2320 .sample 0 17 = .ok (some 112) := by
  decide +kernel

/-- **C71** is violated for files shorter than the buffers: the reload after the second update of a mono file of 500 samples looks for
a buffer that does not exist. -/
theorem C71_short_refuted : exPingMisses 1000 1 0 500 .loop 0 2 = .error .outOfBounds := by
  decide +kernel

end TVP
