import Verif.Lemmas.Glide
import Verif.Lemmas.WindowRev

/-!
# A player streaming backwards, update by update
-/

namespace TVP
open Spec

/-- Readers satisfying `St` move backwards by at most `D` samples per update and read only from 0 to `E`. -/
def GlidesBack (fp : Fp) (St : Rd → Prop) (D E : Int) : Prop :=
  ∀ r, St r → Plain r ∧ r.loopType = .none ∧ fp.f.rnd r.rate < 0 ∧ r.pos1 + r.nch ≤ E ∧
    ∃ ps r', posTrace fp blockSamples r = .ok (ps, r') ∧ St r' ∧ SameConf r r' ∧ r'.pos1 ≤ r.pos1 ∧ r.pos1 - D ≤ r'.pos1 ∧
      (ps = [] ∨ r.pos1 ∈ ps) ∧ (∀ p ∈ ps, 0 ≤ p ∧ p ≤ r.pos1 ∧ r.pos1 + r.nch - 1 - D ≤ p)

/-- A streaming player `a` and a player `b` with the whole file in memory, in the same state. -/
structure InStepBack (m : List Nat) (g : Geo) (mm : Int) (St : Rd → Prop) (F0 : Nat) (a : FileReader) (b : ArrayReader) : Prop where
  rd : b.rd = a.rd
  nch : 0 < a.rd.nch
  fails : ∀ c, a.src = some c → c.fails = F0
  src : b.src = some (toSamples m)
  live : a.rd.playing = true → St a.rd ∧ ∃ c k, a.src = some c ∧ RWin m g mm c k ∧ k * g.B ≤ 2147483647 ∧
    (a.rd.pos1 + a.rd.nch - 1) / g.B ≤ k ∧ k - mm ≤ (a.rd.pos1 + a.rd.nch - 1) / g.B

variable {m : List Nat} {g : Geo} {mm : Int} {St : Rd → Prop} {F0 : Nat} {fp : Fp}

theorem ediv_sub_le {x y D mm B : Int} (hB : 0 < B) (hD : D ≤ mm * B) (h : x - D ≤ y) : x / B - mm ≤ y / B := by
  have h1 : (x + (-mm) * B) / B = x / B + -mm := Int.add_mul_ediv_right _ _ (ne_of_gt hB)
  have h2 : (-mm) * B = -(mm * B) := by ring
  have h3 : (x + (-mm) * B) / B ≤ y / B := Int.ediv_le_ediv hB (by omega)
  omega

theorem InStepBack.tick (hB : g.B < 16384) (hb : IsBytes m) (hm : m.length < 4294967296)
    {D E : Int} (hD : D ≤ mm * g.B) (hE : 2 * E ≤ m.length) (hE2 : E ≤ 2147483647)
    (hSt : GlidesBack fp St D E) (nullOk : Bool) {fuel : Nat} (hf : g.N ≤ fuel + 1) {a : FileReader} {b : ArrayReader}
    (h : InStepBack m g mm St F0 a b) (alloc : Nat → Bool) :
    ∃ fx a' b', a.tick fp g nullOk (fuel + 1) alloc = .ok (fx, a') ∧ b.tick fp (fuel + 1) alloc = .ok (fx, b') ∧ InStepBack m g mm St F0 a' b' := by
  obtain ⟨r, src⟩ := a
  obtain ⟨r2, src2⟩ := b
  obtain ⟨h1, hn, hF, h2, h3⟩ := h
  simp only at h1 h2 h3 hn hF
  rw [h1, h2]; clear h1 h2 r2 src2
  have hB0 : (0 : Int) < g.B := by exact_mod_cast g.B_pos
  unfold FileReader.tick ArrayReader.tick FileReader.update ArrayReader.update
  simp only
  cases hp : r.playing with
  | false =>
    rw [update_off hn, update_off hn]
    refine ⟨{}, ⟨r, src⟩, ⟨r, some (toSamples m)⟩, rfl, rfl, ⟨rfl, hn, hF, rfl, fun h => ?_⟩⟩
    rw [hp] at h; cases h
  | true =>
    by_cases ha : ((List.range r.nch.toNat).filter alloc).length = (List.range r.nch.toNat).length
    · rw [update_on hn _ _ _ ha, update_on hn _ _ _ ha]
      obtain ⟨hst, c, k, hc, hw, hkB, hk1, hk2⟩ := h3 hp
      subst hc
      obtain ⟨hpl, hl, hrate, htop, ps, r', hps, hst', hconf, hle, hleD, hps0, hpsm⟩ := hSt r hst
      set T := r.pos1 + r.nch - 1 with hT
      have hidx : ∀ i ∈ framesIdx r.nch ps, InFile m i ∧ i / g.B ≤ T / g.B ∧ T / g.B - mm ≤ i / g.B := by
        intro i hi
        obtain ⟨p, hp, q1, q2⟩ := mem_framesIdx.1 hi
        obtain ⟨e1, e2, e3⟩ := hpsm p hp
        exact ⟨⟨by omega, by omega⟩, Int.ediv_le_ediv hB0 (by omega), ediv_sub_le hB0 hD (by omega)⟩
      have hbd : ∀ p ∈ ps, InI32 p ∧ ∀ c : Nat, (c : Int) < r.nch → InI32 (p + c) := by
        intro p hp
        obtain ⟨e1, e2, e3⟩ := hpsm p hp
        exact ⟨⟨by omega, by omega⟩, fun c hc => ⟨by omega, by omega⟩⟩
      have hread : ∀ {σ : Type} (S : Src σ) (s : σ), r.read fp S (fuel + 1) s blockSamples =
          srcFrames S r.nch s ps >>= fun x => .ok ⟨x.1, [], r', x.2⟩ := by
        intro σ S s
        unfold Rd.read
        rw [hp, if_neg (by decide), if_neg (by omega), if_neg (by omega)]
        exact readLoop_posTrace fp S fuel _ r r' ps s hpl hl hps hbd
      unfold FileReader.read ArrayReader.read
      simp only
      rw [hread, hread, srcFrames_file, srcFrames_array (toSamples m) r.nch ps (fun i hi => by
        obtain ⟨⟨e1, e2⟩, _⟩ := hidx i hi
        rw [toSamples_length]; omega)]
      simp only [ok_bind, pure_eq_ok]
      have htopmem : r.pos1 ∈ ps → ∃ i ∈ framesIdx r.nch ps, i / g.B = T / g.B := fun e =>
        ⟨T, mem_framesIdx.2 ⟨_, e, by omega, by omega⟩, rfl⟩
      have hbuf : ∀ i ∈ framesIdx r.nch ps, Buffered g c i := by
        rcases hps0 with e | e
        · rw [e]; intro i hi; cases hi
        · exact (hw.round hB hm hkB hk1 hk2 hidx (htopmem e)).1
      have hfr : ps.map (frameAt (fun i => (c.get g i).1) r.nch) = ps.map (frameAt (fun i => (toSamples m).getD i.toNat 0) r.nch) := by
        refine List.map_congr_left fun p hp => ?_
        unfold frameAt
        refine List.map_congr_left fun k hk => ?_
        have hi : p + k ∈ framesIdx r.nch ps := mem_framesIdx.2 ⟨p, hp, by omega, by rw [List.mem_range] at hk; omega⟩
        obtain ⟨hin, _⟩ := hidx _ hi
        show (c.get g (p + k)).1 = (toSamples m).getD (p + k).toNat 0
        rw [((hw.reached.ok.serves hb hm hin).1 (hbuf _ hi)).1, toSamples_raw m _ (by have := hin.1; have := hin.2; omega)]
        exact (rawSample_eq hb (by have := hin.1; have := hin.2; omega)).symm
      rw [hfr]
      set frames := ps.map (frameAt (fun i => (toSamples m).getD i.toNat 0) r.nch) with hframes
      have hlen : frames.length = ps.length := by rw [hframes, List.length_map]
      by_cases hfull : frames.length = blockSamples
      · have e : (fxOf r.nch frames alloc).event = some .reload := by unfold fxOf; simp only [hfull, if_true]
        rw [e]
        simp only [FileReader.service, ArrayReader.service, FileReader.triggerReload, ArrayReader.triggerReload]
        have hne : r.pos1 ∈ ps := by
          rcases hps0 with e | e
          · rw [e] at hlen; rw [hlen] at hfull; exact absurd hfull (by decide)
          · exact e
        obtain ⟨c', hrl, hw'⟩ := (hw.round hB hm hkB hk1 hk2 hidx (htopmem hne)).2
          (fuel + 1) (fp.f.rnd r'.rate) hf (hSt r' hst').2.2.1
        rw [hrl]
        refine ⟨_, _, _, rfl, rfl, ⟨rfl, by simp only; rw [hconf.nch]; exact hn, ?_, rfl, fun _ => ⟨hst', c', _, rfl, hw', ?_, ?_, ?_⟩⟩⟩
        · intro c2 h2
          cases h2
          rw [Cache.triggerReload_fails hrl]
          exact (gets_hits hw.reached.ok hb hm _ fun i hi => ⟨(hidx i hi).1, hbuf i hi⟩).2.trans (hF c rfl)
        · have := Int.ediv_mul_le T (ne_of_gt hB0)
          omega
        · simp only
          rw [hconf.nch]
          exact Int.ediv_le_ediv hB0 (by omega)
        · simp only
          rw [hconf.nch]
          exact ediv_sub_le hB0 hD (by omega)
      · have e : (fxOf r.nch frames alloc).event = some .close := by unfold fxOf; simp only [hfull, if_false]
        rw [e]
        refine ⟨_, _, _, rfl, rfl, ⟨rfl, ?_, ?_, rfl, fun h => ?_⟩⟩
        · simp only [FileReader.close, Rd.stop]; rw [hconf.nch]; exact hn
        · intro c2 h2; simp only [FileReader.close] at h2; cases h2
        · simp only [FileReader.close, Rd.stop] at h; cases h
    · rw [update_short hn _ _ _ ha, update_short hn _ _ _ ha]
      refine ⟨_, ⟨r, src⟩, ⟨r, some (toSamples m)⟩, rfl, rfl, ⟨rfl, hn, hF, rfl, h3⟩⟩

theorem InStepBack.ticks (hB : g.B < 16384) (hb : IsBytes m) (hm : m.length < 4294967296)
    {D E : Int} (hD : D ≤ mm * g.B) (hE : 2 * E ≤ m.length) (hE2 : E ≤ 2147483647)
    (hSt : GlidesBack fp St D E) (nullOk : Bool) {fuel : Nat} (hf : g.N ≤ fuel + 1) : ∀ (als : List (Nat → Bool)) {a : FileReader} {b : ArrayReader},
    InStepBack m g mm St F0 a b →
    ∃ fxs a' b', a.ticks fp g nullOk (fuel + 1) als = .ok (fxs, a') ∧ b.ticks fp (fuel + 1) als = .ok (fxs, b') ∧ InStepBack m g mm St F0 a' b'
  | [], a, b, h => ⟨[], a, b, rfl, rfl, h⟩
  | al :: als, a, b, h => by
    obtain ⟨fx, a1, b1, h1, h2, h3⟩ := h.tick hB hb hm hD hE hE2 hSt nullOk hf al
    obtain ⟨fxs, a2, b2, k1, k2, k3⟩ := InStepBack.ticks hB hb hm hD hE hE2 hSt nullOk hf als h3
    refine ⟨fx :: fxs, a2, b2, ?_, ?_, k3⟩
    · unfold FileReader.ticks; simp only [h1, ok_bind, k1]; rfl
    · unfold ArrayReader.ticks; simp only [h2, ok_bind, k2]; rfl

/-! ## Any rate -/

/-- A plain reader going backwards at any rate up to `R` frames per frame. -/
structure RevAny (fp : Fp) (R H nch E : Int) (r : Rd) : Prop where
  plain : Plain r
  loop : r.loopType = .none
  rateF : fp.f.rnd r.rate < 0
  rateR : -R ≤ r.rate
  flt : IsFloat 53 (-1074) r.rem
  frac : |r.rem| < 1
  header : r.header = H
  chans : r.nch = nch
  bottom : r.playStart = .sample ∨ r.loopStart = 0
  top : r.pos1 + nch ≤ E
  low : H - nch * (R + 1) ≤ r.pos1

theorem RevAny.rate0 {R H nch E : Int} {r : Rd} (h : RevAny fp R H nch E r) : r.rate < 0 := by
  by_contra hc
  exact absurd (fp.f.nonneg (not_lt.1 hc)) (not_le.2 h.rateF)

theorem RevAny.trace (hfp : Representable fp) {R H nch E : Int} (hR2 : R ≤ 2 ^ 30) (hH : 0 ≤ H) (hH2 : H ≤ 2147483647) (hE2 : E ≤ 2147483647)
    (hfits : nch * (R + 1) ≤ 2147483647) : ∀ (n : Nat) (r : Rd), RevAny fp R H nch E r →
    ∃ ps r', posTrace fp n r = .ok (ps, r') ∧ RevAny fp R H nch E r' ∧ SameConf r r' ∧ r'.pos1 ≤ r.pos1 ∧
      r.pos1 - n * (nch * (R + 1)) ≤ r'.pos1 ∧ (n = 0 ∨ ps = [] ∨ r.pos1 ∈ ps) ∧
      (∀ p ∈ ps, 0 ≤ p ∧ p ≤ r.pos1 ∧ r.pos1 + nch - n * (nch * (R + 1)) ≤ p)
  | 0, r, h => ⟨[], r, rfl, h, SameConf.refl r, le_refl _, by simp, Or.inl rfl, fun p hp => by cases hp⟩
  | n + 1, r, h => by
    have hn : 0 < nch := by rw [← h.chans]; exact h.plain.nch
    have hr0 := h.rate0
    have hR0 : 0 < R := by
      have : (0 : ℚ) < R := by linarith [h.rateR]
      exact_mod_cast this
    have hstepn : 0 ≤ nch * (R + 1) := mul_nonneg (le_of_lt hn) (by omega)
    have hnn : 0 ≤ n * (nch * (R + 1)) := mul_nonneg (by omega) hstepn
    have hsum : ((n + 1 : Nat) : Int) * (nch * (R + 1)) = n * (nch * (R + 1)) + nch * (R + 1) := by push_cast; ring
    have htop := h.top
    have hlow := h.low
    have hat : r.atEnd = decide (r.pos1 < H) := by
      unfold Rd.atEnd
      simp only [h.plain.dual, Bool.false_eq_true, if_false, ge_iff_le, not_le.2 hr0]
      rcases h.bottom with e | e
      · simp only [e, if_true, h.header]
      · have : r.posOf r.loopStart = H := by
          rw [posOf_eq] <;> rw [h.header, e, zero_mul, add_zero]
          exact ⟨by omega, by omega⟩
        simp only [this, h.header]
        split <;> rfl
    unfold posTrace
    by_cases hend : r.pos1 < H
    · rw [hat]
      simp only [hend, decide_true, if_true]
      exact ⟨[], r, rfl, h, SameConf.refl r, le_refl _, by rw [hsum]; omega, Or.inr (Or.inl rfl), fun p hp => by cases hp⟩
    · rw [hat]
      simp only [hend, decide_false, Bool.false_eq_true, if_false]
      have hmulδ : ∀ δ : Int, |δ| ≤ R + 1 → δ ≤ 0 → -(nch * (R + 1)) ≤ δ * nch ∧ δ * nch ≤ 0 := by
        intro δ h1 h2
        rw [abs_of_nonpos h2] at h1
        have h3 : -(R + 1) * nch ≤ δ * nch := mul_le_mul_of_nonneg_right (by omega) (le_of_lt hn)
        have h4 : -(R + 1) * nch = -(nch * (R + 1)) := by ring
        exact ⟨by omega, mul_nonpos_of_nonpos_of_nonneg h2 (le_of_lt hn)⟩
      obtain ⟨δ, f, e1, e2, _, e4, e5, e6⟩ := stepOn_any fp hfp (r := r) (R := R) (by rw [abs_of_neg hr0]; linarith [h.rateR]) hR2
        h.flt h.frac h.plain.cfOn (fun δ hδ _ h0 => by
          obtain ⟨q1, q2⟩ := hmulδ δ hδ (h0 (le_of_lt hr0))
          rw [h.chans]
          exact ⟨⟨by omega, by omega⟩, ⟨by omega, by omega⟩⟩)
      obtain ⟨q1, q2⟩ := hmulδ δ e2 (e4 (le_of_lt hr0))
      have hnch1 : nch ≤ nch * (R + 1) := by rw [mul_add, mul_one]; have := mul_nonneg (le_of_lt hn) (le_of_lt hR0); omega
      set r1 : Rd := { r with rem := f, pos1 := r.pos1 + δ * r.nch } with hr1
      have hp1 : r1.pos1 = r.pos1 + δ * nch := by rw [hr1, h.chans]
      have h1 : RevAny fp R H nch E r1 :=
        ⟨⟨h.plain.dual, h.plain.interp, h.plain.cfOn, h.plain.nch⟩, h.loop, h.rateF, h.rateR, e5, e6, h.header, h.chans, h.bottom,
          by rw [hp1]; omega, by rw [hp1]; omega⟩
      obtain ⟨ps, r', k1, k2, k3, k4, k5, k6, k7⟩ := RevAny.trace hfp hR2 hH hH2 hE2 hfits n r1 h1
      have hc1 : SameConf r r1 := ⟨rfl, rfl, rfl, rfl, rfl, rfl, rfl, rfl, rfl, rfl, rfl, rfl, rfl, rfl⟩
      refine ⟨r.pos1 :: ps, r', ?_, k2, hc1.trans k3, by omega, by rw [hsum]; omega, Or.inr (Or.inr (by simp)), ?_⟩
      · rw [e1]; simp only [ok_bind, k1]
      · intro p hp
        rcases List.mem_cons.1 hp with rfl | hp
        · exact ⟨by omega, le_refl _, by rw [hsum]; omega⟩
        · obtain ⟨j1, j2, j3⟩ := k7 p hp
          exact ⟨j1, by omega, by rw [hsum]; omega⟩

theorem RevAny.glides (hfp : Representable fp) {R H nch E : Int} (hR2 : R ≤ 2 ^ 30) (hH : 0 ≤ H) (hH2 : H ≤ 2147483647) (hE2 : E ≤ 2147483647)
    (hfits : nch * (R + 1) ≤ 2147483647) : GlidesBack fp (RevAny fp R H nch E) (128 * (nch * (R + 1))) E := by
  intro r h
  obtain ⟨ps, r', k1, k2, k3, k4, k5, k6, k7⟩ := RevAny.trace hfp hR2 hH hH2 hE2 hfits blockSamples r h
  have hbs : (blockSamples : Int) = 128 := rfl
  rw [hbs] at k5 k7
  refine ⟨h.plain, h.loop, h.rateF, by rw [h.chans]; exact h.top, ps, r', k1, k2, k3, k4, k5, ?_, ?_⟩
  · rcases k6 with k6 | k6
    · cases k6
    · exact k6
  · intro p hp
    obtain ⟨j1, j2, j3⟩ := k7 p hp
    rw [h.chans]
    exact ⟨j1, j2, by omega⟩

/-! ## Starting -/

/-- The sample backward playback without looping of a file of `S` samples starts at: `F` is the number of frames. -/
def backStart (r : Rd) (S F : Int) : Int :=
  match r.playStart with
  | .sample => S - r.nch
  | .loop => r.header + (F - r.nch) * r.nch
  | .arbitrary => r.header + r.playbackStart * r.nch

/-- What `play(filename)` leaves behind when it succeeds, for backward playback without looping. -/
theorem playFinish_rev (hm : m.length < 2 ^ 31) (hmm0 : 0 ≤ mm) (hmm : 2 * mm + 1 ≤ g.N) {r : Rd} {f : Dev} (hf : f.bytes = m)
    (hsz : r.fileSize = m.length) (hH : 0 ≤ r.header) (hroom : 2 * r.header < m.length) (hn : 0 < r.nch) (hd : r.dual = false) (hi : r.interp = .none)
    (hl : r.loopType = .none) {R : Int} (hR0 : fp.f.rnd r.rate < 0) (hR : -R ≤ r.rate) (hRn : 0 ≤ R) (hflt : IsFloat 53 (-1074) r.rem)
    (hfrac : |r.rem| < 1) (hF32 : InI32 (r.fileSamples.tdiv r.nch)) {P : Int} (hP : backStart r ((m.length : Int) / 2) (r.fileSamples.tdiv r.nch) = P) (hP0 : r.header ≤ P)
    (hP1 : P + r.nch ≤ (m.length : Int) / 2) (hsame : (P + r.nch - 1) / g.B = P / g.B) (hok : P / g.B = 0 ∨ 2 * (P / g.B * g.B) + g.B ≤ m.length) :
    ∃ a, playFinish g r f = .ok (true, a) ∧
      InStepBack m g mm (RevAny fp R r.header r.nch ((m.length : Int) / 2)) 0 a ⟨a.rd, some (toSamples m)⟩ ∧ a.rd.playing = true ∧
      a.rd.nch = r.nch ∧ a.rd.header = r.header ∧ a.rd.fileSamples = r.fileSamples.tdiv r.nch ∧ a.rd.rate = r.rate ∧ a.rd.rem = r.rem ∧
      a.rd.pos1 = P ∧ a.rd.playStart = r.playStart ∧ a.rd.loopStart = 0 := by
  have hB0 : (0 : Int) < g.B := by exact_mod_cast g.B_pos
  have hr0 : r.rate < 0 := by
    by_contra hc
    exact absurd (fp.f.nonneg (not_lt.1 hc)) (not_le.2 hR0)
  set F := r.fileSamples.tdiv r.nch with hF
  have hnR : 0 ≤ r.nch * (R + 1) := mul_nonneg (le_of_lt hn) (by omega)
  unfold playFinish
  rw [hsz, if_neg (by unfold u32; omega), if_neg (by omega)]
  simp only [hl, if_true, ← hF]
  set rd0 : Rd := { r with fileSize := m.length, loopType := .none, fileSamples := F, loopStart := i32 0, loopFinish := i32 F } with hrd0
  set c0 : Cache := { dev := f, loopType := .none, loopStartBlk := i32 (rd0.s2s (i32 0)) / g.B, loopFinishBlk := i32 (rd0.s2s (i32 F)) / g.B } with hc0
  have hp : rd0.reset.pos1 = P := by
    unfold Rd.reset
    have h0' : ¬ (rd0.rate ≥ 0) := not_le.2 hr0
    simp only [h0', if_false]
    have hpos : ∀ y, r.header + y * r.nch = P → Rd.posOf { rd0 with pts := fun c => if c < 8 then { rd0.pts c with n := 0 } else rd0.pts c } y = P := by
      intro y hy
      rw [posOf_eq (r := { rd0 with pts := fun c => if c < 8 then { rd0.pts c with n := 0 } else rd0.pts c })
        ⟨by show -2147483648 ≤ r.header + y * r.nch; omega, by show r.header + y * r.nch ≤ 2147483647; omega⟩]
      exact hy
    unfold backStart at hP
    have hps : rd0.playStart = r.playStart := rfl
    rw [hps]
    cases hstart : r.playStart with
    | sample =>
      rw [hstart] at hP
      simp only at hP ⊢
      show i32 ((m.length : Int).tdiv 2 - r.nch) = P
      rw [Int.tdiv_eq_ediv_of_nonneg (by omega), i32_of_in ⟨by omega, by omega⟩]
      exact hP
    | loop =>
      rw [hstart] at hP
      exact hpos (i32 F - r.nch) (by rw [i32_of_in hF32]; exact hP)
    | arbitrary =>
      rw [hstart] at hP
      exact hpos _ hP
  have hpre := RWin.preLoad (m := m) (g := g) (c := c0) (i := P) (mm := mm) (by omega) hmm (Reached.fresh' hf rfl) rfl rfl
    (by omega) (by omega) hok
  obtain ⟨hw, hfl⟩ := hpre
  have hPB := Int.ediv_mul_le P (ne_of_gt hB0)
  refine ⟨⟨{ rd0.reset with playing := true }, some (c0.preLoad g P false)⟩, ?_, ⟨rfl, hn, ?_, rfl, fun _ => ⟨?_, _, _, rfl, hw, ?_, ?_, ?_⟩⟩,
    rfl, rfl, rfl, rfl, rfl, rfl, hp, rfl, show i32 0 = 0 by decide⟩
  · have e : c0.preLoad g P false = c0.preLoad g rd0.reset.pos1 (decide (rd0.reset.rate ≥ 0)) := by
      rw [hp, decide_eq_false (show ¬ (rd0.reset.rate ≥ 0) from not_le.2 hr0)]
    rw [e]; rfl
  · intro c hc; cases hc; exact hfl
  · refine ⟨⟨hd, hi, rfl, hn⟩, rfl, hR0, hR, hflt, hfrac, rfl, rfl, Or.inr (show i32 0 = 0 by decide), by simp only [hp]; exact hP1, by simp only [hp]; omega⟩
  · omega
  · simp only [hp]
    show (P + r.nch - 1) / g.B ≤ P / g.B
    omega
  · simp only [hp]
    show P / g.B - mm ≤ (P + r.nch - 1) / g.B
    omega

end TVP
