import Verif.Lemmas.Stream

/-!
# A player streaming forwards, update by update
-/

namespace TVP
open Spec

/-- An update of the player followed by servicing the event it raised. -/
def FileReader.tick (fp : Fp) (g : Geo) (nullOk : Bool) (fuel : Nat) (a : FileReader) (alloc : Nat → Bool) : M (Fx × FileReader) := do
  let (fx, a) ← a.update fp g nullOk fuel alloc
  match fx.event with
  | none => return (fx, a)
  | some e => return (fx, ← a.service fp g fuel e)

/-- Several updates, each followed by servicing its event; `alloc` tells which block allocations succeed in each. -/
def FileReader.ticks (fp : Fp) (g : Geo) (nullOk : Bool) (fuel : Nat) : FileReader → List (Nat → Bool) → M (List Fx × FileReader)
  | a, [] => .ok ([], a)
  | a, al :: als => do
    let (fx, a) ← a.tick fp g nullOk fuel al
    let (fxs, a) ← FileReader.ticks fp g nullOk fuel a als
    return (fx :: fxs, a)

def ArrayReader.tick (fp : Fp) (fuel : Nat) (a : ArrayReader) (alloc : Nat → Bool) : M (Fx × ArrayReader) := do
  let (fx, a) ← a.update fp fuel alloc
  match fx.event with
  | none => return (fx, a)
  | some e => return (fx, a.service e)

def ArrayReader.ticks (fp : Fp) (fuel : Nat) : ArrayReader → List (Nat → Bool) → M (List Fx × ArrayReader)
  | a, [] => .ok ([], a)
  | a, al :: als => do
    let (fx, a) ← a.tick fp fuel al
    let (fxs, a) ← ArrayReader.ticks fp fuel a als
    return (fx :: fxs, a)

/-! ## The file as an array -/

theorem toSamples_length : ∀ m : List Nat, (toSamples m).length = m.length / 2
  | [] => rfl
  | [_] => by simp [toSamples]
  | a :: b :: rest => by
    rw [toSamples, List.length_cons, toSamples_length rest, List.length_cons, List.length_cons]; omega

theorem toSamples_raw : ∀ (m : List Nat) (i : Nat), 2 * i + 2 ≤ m.length → (toSamples m).getD i 0 = sampleAt m i
  | [], i, h => by simp at h
  | [_], i, h => by simp at h
  | a :: b :: rest, 0, _ => rfl
  | a :: b :: rest, i + 1, h => by
    rw [toSamples, List.getD_cons_succ, toSamples_raw rest i (by simp only [List.length_cons] at h; omega)]
    rfl

/-! ## Gliding -/

/-- Readers satisfying `St` move forwards by at most `D` samples per update and read only below `E`. -/
def Glides (fp : Fp) (St : Rd → Prop) (D E : Int) : Prop :=
  ∀ r, St r → Plain r ∧ r.loopType = .none ∧ 0 ≤ r.rate ∧ 0 ≤ r.pos1 ∧
    ∃ ps r', posTrace fp blockSamples r = .ok (ps, r') ∧ St r' ∧ SameConf r r' ∧ r.pos1 ≤ r'.pos1 ∧ r'.pos1 ≤ r.pos1 + D ∧
      (ps = [] ∨ r.pos1 ∈ ps) ∧ (∀ p ∈ ps, r.pos1 ≤ p ∧ p + r.nch - 1 ≤ r.pos1 + D ∧ p + r.nch ≤ E)

/-- A streaming player `a` and a player `b` with the whole file in memory, in the same state. -/
structure InStep (m : List Nat) (g : Geo) (mm : Int) (St : Rd → Prop) (F0 : Nat) (a : FileReader) (b : ArrayReader) : Prop where
  rd : b.rd = a.rd
  nch : 0 < a.rd.nch
  fails : ∀ c, a.src = some c → c.fails = F0
  src : b.src = some (toSamples m)
  live : a.rd.playing = true → St a.rd ∧ ∃ c k L, a.src = some c ∧ FWin m g mm c k L ∧ k ≤ a.rd.pos1 / g.B ∧ a.rd.pos1 / g.B ≤ k + mm

variable {m : List Nat} {g : Geo} {mm : Int} {St : Rd → Prop} {F0 : Nat} {fp : Fp}

theorem update_off {ρ : Type} {nch : Int} (hn : 0 < nch) (rd : M (List (List Int) × ρ)) (st : ρ) (alloc : Nat → Bool) :
    update nch false rd st alloc = .ok ({}, st) := by
  unfold update
  rw [if_neg (by omega), if_neg (by omega)]; rfl

/-- The effects of an update that read `frames`. -/
def fxOf (nch : Int) (frames : List (List Int)) (alloc : Nat → Bool) : Fx :=
  { allocated := (List.range nch.toNat).filter alloc
    transmitted := (List.range nch.toNat).map (fun ch => (blockOf frames ch, ch)) ++ (if nch = 1 then [(blockOf frames 0, 1)] else [])
    released := (List.range nch.toNat).filter alloc
    event := some (if frames.length = blockSamples then .reload else .close) }

theorem update_on {ρ : Type} {nch : Int} (hn : 0 < nch) (rd : M (List (List Int) × ρ)) (st : ρ) (alloc : Nat → Bool)
    (ha : ((List.range nch.toNat).filter alloc).length = (List.range nch.toNat).length) :
    update nch true rd st alloc = rd >>= fun x => .ok (fxOf nch x.1 alloc, x.2) := by
  unfold update
  rw [if_neg (by omega), if_neg (by omega)]
  simp only [Bool.not_true, Bool.false_eq_true, if_false, ha, if_true]
  congr 1
  funext x
  unfold fxOf
  split <;> simp [pure_eq_ok]

theorem update_short {ρ : Type} {nch : Int} (hn : 0 < nch) (rd : M (List (List Int) × ρ)) (st : ρ) (alloc : Nat → Bool)
    (ha : ((List.range nch.toNat).filter alloc).length ≠ (List.range nch.toNat).length) :
    update nch true rd st alloc = .ok ({ allocated := (List.range nch.toNat).filter alloc, released := (List.range nch.toNat).filter alloc }, st) := by
  unfold update
  rw [if_neg (by omega), if_neg (by omega)]
  simp only [Bool.not_true, Bool.false_eq_true, if_false, ha]
  rfl

theorem InStep.tick (hB : g.B < 16384) (hb : IsBytes m) (hm : m.length < 4294967296)
    (hfit : (m.length : Int) / 2 + g.N * g.B ≤ 2147483647) {D E : Int} (hD : D ≤ mm * g.B) (hE : 2 * E ≤ m.length)
    (hSt : Glides fp St D E) (nullOk : Bool) {fuel : Nat} (hf : g.N ≤ fuel + 1) {a : FileReader} {b : ArrayReader}
    (h : InStep m g mm St F0 a b) (alloc : Nat → Bool) :
    ∃ fx a' b', a.tick fp g nullOk (fuel + 1) alloc = .ok (fx, a') ∧ b.tick fp (fuel + 1) alloc = .ok (fx, b') ∧ InStep m g mm St F0 a' b' := by
  obtain ⟨r, src⟩ := a
  obtain ⟨r2, src2⟩ := b
  obtain ⟨h1, hn, hF, h2, h3⟩ := h
  simp only at h1 h2 h3 hn hF
  rw [h1, h2]; clear h1 h2 r2 src2
  have hB0 : (0 : Int) < g.B := by exact_mod_cast g.B_pos
  unfold FileReader.tick ArrayReader.tick FileReader.update ArrayReader.update
  simp only
  cases hp : r.playing with
  | false =>
    rw [update_off hn, update_off hn]
    refine ⟨{}, ⟨r, src⟩, ⟨r, some (toSamples m)⟩, rfl, rfl, ⟨rfl, hn, hF, rfl, fun h => ?_⟩⟩
    rw [hp] at h; cases h
  | true =>
    by_cases ha : ((List.range r.nch.toNat).filter alloc).length = (List.range r.nch.toNat).length
    · rw [update_on hn _ _ _ ha, update_on hn _ _ _ ha]
      obtain ⟨hst, c, k, L, hc, hw, hk1, hk2⟩ := h3 hp
      subst hc
      obtain ⟨hpl, hl, hrate, hpos, ps, r', hps, hst', hconf, hle, hleD, hps0, hpsm⟩ := hSt r hst
      have hidx : ∀ i ∈ framesIdx r.nch ps, InFile m i ∧ r.pos1 / g.B ≤ i / g.B ∧ i / g.B ≤ r.pos1 / g.B + mm := by
        intro i hi
        obtain ⟨p, hp, q1, q2⟩ := mem_framesIdx.1 hi
        obtain ⟨e1, e2, e3⟩ := hpsm p hp
        refine ⟨⟨by omega, by omega⟩, Int.ediv_le_ediv hB0 (by omega), ?_⟩
        rw [← Int.add_mul_ediv_right _ _ (ne_of_gt hB0)]
        exact Int.ediv_le_ediv hB0 (by omega)
      have hbd : ∀ p ∈ ps, InI32 p ∧ ∀ c : Nat, (c : Int) < r.nch → InI32 (p + c) := by
        intro p hp
        obtain ⟨e1, e2, e3⟩ := hpsm p hp
        exact ⟨⟨by omega, by omega⟩, fun c hc => ⟨by omega, by omega⟩⟩
      have hread : ∀ {σ : Type} (S : Src σ) (s : σ), r.read fp S (fuel + 1) s blockSamples =
          srcFrames S r.nch s ps >>= fun x => .ok ⟨x.1, [], r', x.2⟩ := by
        intro σ S s
        unfold Rd.read
        rw [hp, if_neg (by decide), if_neg (by omega), if_neg (by omega)]
        exact readLoop_posTrace fp S fuel _ r r' ps s hpl hl hps hbd
      unfold FileReader.read ArrayReader.read
      simp only
      rw [hread, hread, srcFrames_file, srcFrames_array (toSamples m) r.nch ps (fun i hi => by
        obtain ⟨⟨e1, e2⟩, _⟩ := hidx i hi
        rw [toSamples_length]; omega)]
      simp only [ok_bind, pure_eq_ok]
      have hbuf : ∀ i ∈ framesIdx r.nch ps, Buffered g c i := by
        rcases hps0 with e | e
        · rw [e]; intro i hi; cases hi
        · exact (hw.round hB hb hm hfit hk1 hk2 hidx ⟨r.pos1, mem_framesIdx.2 ⟨_, e, le_refl _, by omega⟩, rfl⟩).1
      have hfr : ps.map (frameAt (fun i => (c.get g i).1) r.nch) = ps.map (frameAt (fun i => (toSamples m).getD i.toNat 0) r.nch) := by
        refine List.map_congr_left fun p hp => ?_
        unfold frameAt
        refine List.map_congr_left fun k hk => ?_
        have hi : p + k ∈ framesIdx r.nch ps := mem_framesIdx.2 ⟨p, hp, by omega, by rw [List.mem_range] at hk; omega⟩
        obtain ⟨hin, _⟩ := hidx _ hi
        show (c.get g (p + k)).1 = (toSamples m).getD (p + k).toNat 0
        rw [((hw.reached.ok.serves hb hm hin).1 (hbuf _ hi)).1, toSamples_raw m _ (by have := hin.1; have := hin.2; omega)]
        exact (rawSample_eq hb (by have := hin.1; have := hin.2; omega)).symm
      rw [hfr]
      set frames := ps.map (frameAt (fun i => (toSamples m).getD i.toNat 0) r.nch) with hframes
      have hlen : frames.length = ps.length := by rw [hframes, List.length_map]
      by_cases hfull : frames.length = blockSamples
      · have e : (fxOf r.nch frames alloc).event = some .reload := by unfold fxOf; simp only [hfull, if_true]
        rw [e]
        simp only [FileReader.service, ArrayReader.service, FileReader.triggerReload, ArrayReader.triggerReload]
        have hne : r.pos1 ∈ ps := by
          rcases hps0 with e | e
          · rw [e] at hlen; rw [hlen] at hfull; exact absurd hfull (by decide)
          · exact e
        obtain ⟨c', hrl, hw'⟩ := (hw.round hB hb hm hfit hk1 hk2 hidx ⟨r.pos1, mem_framesIdx.2 ⟨_, hne, le_refl _, by omega⟩, rfl⟩).2
          (fuel + 1) (fp.f.rnd r'.rate) hf (fp.f.nonneg (hSt r' hst').2.2.1)
        rw [hrl]
        refine ⟨_, _, _, rfl, rfl, ⟨rfl, by simp only; rw [hconf.nch]; exact hn, ?_, rfl, fun _ => ⟨hst', c', _, L, rfl, hw', ?_, ?_⟩⟩⟩
        · intro c2 h2
          cases h2
          rw [Cache.triggerReload_fails hrl]
          exact (gets_hits hw.reached.ok hb hm _ fun i hi => ⟨(hidx i hi).1, hbuf i hi⟩).2.trans (hF c rfl)
        · exact Int.ediv_le_ediv hB0 hle
        · simp only
          rw [← Int.add_mul_ediv_right _ _ (ne_of_gt hB0)]
          exact Int.ediv_le_ediv hB0 (by omega)
      · have e : (fxOf r.nch frames alloc).event = some .close := by unfold fxOf; simp only [hfull, if_false]
        rw [e]
        refine ⟨_, _, _, rfl, rfl, ⟨rfl, ?_, ?_, rfl, fun h => ?_⟩⟩
        · simp only [FileReader.close, Rd.stop]; rw [hconf.nch]; exact hn
        · intro c2 h2; simp only [FileReader.close] at h2; cases h2
        · simp only [FileReader.close, Rd.stop] at h; cases h
    · rw [update_short hn _ _ _ ha, update_short hn _ _ _ ha]
      refine ⟨_, ⟨r, src⟩, ⟨r, some (toSamples m)⟩, rfl, rfl, ⟨rfl, hn, hF, rfl, h3⟩⟩

theorem InStep.ticks (hB : g.B < 16384) (hb : IsBytes m) (hm : m.length < 4294967296)
    (hfit : (m.length : Int) / 2 + g.N * g.B ≤ 2147483647) {D E : Int} (hD : D ≤ mm * g.B) (hE : 2 * E ≤ m.length)
    (hSt : Glides fp St D E) (nullOk : Bool) {fuel : Nat} (hf : g.N ≤ fuel + 1) : ∀ (als : List (Nat → Bool)) {a : FileReader} {b : ArrayReader},
    InStep m g mm St F0 a b →
    ∃ fxs a' b', a.ticks fp g nullOk (fuel + 1) als = .ok (fxs, a') ∧ b.ticks fp (fuel + 1) als = .ok (fxs, b') ∧ InStep m g mm St F0 a' b'
  | [], a, b, h => ⟨[], a, b, rfl, rfl, h⟩
  | al :: als, a, b, h => by
    obtain ⟨fx, a1, b1, h1, h2, h3⟩ := h.tick hB hb hm hfit hD hE hSt nullOk hf al
    obtain ⟨fxs, a2, b2, k1, k2, k3⟩ := InStep.ticks hB hb hm hfit hD hE hSt nullOk hf als h3
    refine ⟨fx :: fxs, a2, b2, ?_, ?_, k3⟩
    · unfold FileReader.ticks; simp only [h1, ok_bind, k1]; rfl
    · unfold ArrayReader.ticks; simp only [h2, ok_bind, k2]; rfl

/-! ## Any rate -/

/-- A plain reader going forwards at any rate up to `R` frames per frame. -/
structure FwdAny (R : Int) (H F nch : Int) (r : Rd) : Prop where
  plain : Plain r
  loop : r.loopType = .none
  rate0 : 0 ≤ r.rate
  rateR : r.rate ≤ R
  flt : IsFloat 53 (-1074) r.rem
  frac : |r.rem| < 1
  header : r.header = H
  fs : r.fileSamples = F
  chans : r.nch = nch
  pos : ∃ q, 0 ≤ q ∧ q ≤ F + R ∧ r.pos1 = H + q * nch

theorem FwdAny.trace (hfp : Representable fp) {R H F nch : Int} (hR2 : R ≤ 2 ^ 30) (hH : 0 ≤ H) (hF : 0 ≤ F)
    (hfits : H + nch * (F + R + 1) ≤ 2147483647) : ∀ (n : Nat) (r : Rd), FwdAny R H F nch r →
    ∃ ps r', posTrace fp n r = .ok (ps, r') ∧ FwdAny R H F nch r' ∧ SameConf r r' ∧ r.pos1 ≤ r'.pos1 ∧
      r'.pos1 ≤ r.pos1 + n * (nch * (R + 1)) ∧ (n = 0 ∨ ps = [] ∨ r.pos1 ∈ ps) ∧
      (∀ p ∈ ps, r.pos1 ≤ p ∧ p + nch ≤ r.pos1 + n * (nch * (R + 1)) ∧ p + nch ≤ H + F * nch)
  | 0, r, h => ⟨[], r, rfl, h, SameConf.refl r, le_refl _, by simp, Or.inl rfl, fun p hp => by cases hp⟩
  | n + 1, r, h => by
    have hn : 0 < nch := by rw [← h.chans]; exact h.plain.nch
    have hR0 : 0 ≤ R := by
      have : (0 : ℚ) ≤ R := le_trans h.rate0 h.rateR
      exact_mod_cast this
    have hstepn : 0 ≤ nch * (R + 1) := mul_nonneg (le_of_lt hn) (by omega)
    have hnn : 0 ≤ n * (nch * (R + 1)) := mul_nonneg (by omega) hstepn
    have hsum : ((n + 1 : Nat) : Int) * (nch * (R + 1)) = n * (nch * (R + 1)) + nch * (R + 1) := by push_cast; ring
    obtain ⟨q, hq0, hqF, hq⟩ := h.pos
    have hend : r.posOf r.fileSamples = H + F * nch := by
      have f := frame_fits hH (le_of_lt hn) hF (show F ≤ F + R + 1 by omega) hfits
      rw [posOf_eq] <;> rw [h.header, h.fs, h.chans]
      exact ⟨by omega, f.2⟩
    have hat : r.atEnd = decide (F ≤ q) := by
      unfold Rd.atEnd
      simp only [h.plain.dual, Bool.false_eq_true, if_false, h.rate0, ge_iff_le, if_true, h.loop, hend, hq]
      congr 1
      apply propext
      constructor
      · intro hle
        have : F * nch ≤ q * nch := by omega
        exact le_of_mul_le_mul_right this hn
      · intro hle
        have := mul_le_mul_of_nonneg_right hle (le_of_lt hn)
        omega
    unfold posTrace
    by_cases hqF2 : F ≤ q
    · rw [hat]
      simp only [hqF2, decide_true, if_true]
      exact ⟨[], r, rfl, h, SameConf.refl r, le_refl _, by rw [hsum]; omega, Or.inr (Or.inl rfl), fun p hp => by cases hp⟩
    · rw [hat]
      simp only [hqF2, decide_false, Bool.false_eq_true, if_false]
      have hpq : ∀ δ : Int, r.pos1 + δ * r.nch = H + (q + δ) * nch := by intro δ; rw [hq, h.chans]; ring
      obtain ⟨δ, f, e1, e2, e3, _, e5, e6⟩ := stepOn_any fp hfp (r := r) (R := R) (by rw [abs_of_nonneg h.rate0]; exact h.rateR) hR2
        h.flt h.frac h.plain.cfOn (fun δ hδ h0 _ => by
          have hδ0 := h0 h.rate0
          rw [abs_of_nonneg hδ0] at hδ
          have f1 := frame_fits hH (le_of_lt hn) hδ0 (show δ ≤ F + R + 1 by omega) hfits
          have f2 := frame_fits hH (le_of_lt hn) (show 0 ≤ q + δ by omega) (show q + δ ≤ F + R + 1 by omega) hfits
          rw [hpq, h.chans]
          exact ⟨⟨by omega, by omega⟩, ⟨by omega, by omega⟩⟩)
      have hδ0 := e3 h.rate0
      rw [abs_of_nonneg hδ0] at e2
      have hmul : δ * nch ≤ nch * (R + 1) := by rw [mul_comm]; exact mul_le_mul_of_nonneg_left e2 (le_of_lt hn)
      have hmul0 : 0 ≤ δ * nch := mul_nonneg hδ0 (le_of_lt hn)
      have hnch1 : nch ≤ nch * (R + 1) := by rw [mul_add, mul_one]; have := mul_nonneg (le_of_lt hn) hR0; omega
      have hqe : (q + 1) * nch ≤ F * nch := mul_le_mul_of_nonneg_right (by omega) (le_of_lt hn)
      rw [add_mul, one_mul] at hqe
      set r1 : Rd := { r with rem := f, pos1 := r.pos1 + δ * r.nch } with hr1
      have h1 : FwdAny R H F nch r1 :=
        ⟨⟨h.plain.dual, h.plain.interp, h.plain.cfOn, h.plain.nch⟩, h.loop, h.rate0, h.rateR, e5, e6, h.header, h.fs, h.chans,
          q + δ, by omega, by omega, hpq δ⟩
      have hp1 : r1.pos1 = r.pos1 + δ * nch := by rw [hr1, h.chans]
      obtain ⟨ps, r', k1, k2, k3, k4, k5, k6, k7⟩ := FwdAny.trace hfp hR2 hH hF hfits n r1 h1
      have hc1 : SameConf r r1 := ⟨rfl, rfl, rfl, rfl, rfl, rfl, rfl, rfl, rfl, rfl, rfl, rfl, rfl, rfl⟩
      refine ⟨r.pos1 :: ps, r', ?_, k2, hc1.trans k3, by omega, by rw [hsum]; omega, Or.inr (Or.inr (by simp)), ?_⟩
      · rw [e1]; simp only [ok_bind, k1]
      · intro p hp
        rcases List.mem_cons.1 hp with rfl | hp
        · exact ⟨le_refl _, by rw [hsum]; omega, by omega⟩
        · obtain ⟨j1, j2, j3⟩ := k7 p hp
          exact ⟨by omega, by rw [hsum]; omega, j3⟩

theorem FwdAny.glides (hfp : Representable fp) {R H F nch : Int} (hR2 : R ≤ 2 ^ 30) (hH : 0 ≤ H) (hF : 0 ≤ F)
    (hfits : H + nch * (F + R + 1) ≤ 2147483647) : Glides fp (FwdAny R H F nch) (128 * (nch * (R + 1))) (H + F * nch) := by
  intro r h
  obtain ⟨ps, r', k1, k2, k3, k4, k5, k6, k7⟩ := FwdAny.trace hfp hR2 hH hF hfits blockSamples r h
  have hn : 0 < nch := by rw [← h.chans]; exact h.plain.nch
  refine ⟨h.plain, h.loop, h.rate0, ?_, ps, r', k1, k2, k3, k4, k5, ?_, ?_⟩
  · obtain ⟨q, hq0, _, hq⟩ := h.pos
    rw [hq]; have := mul_nonneg hq0 (le_of_lt hn); omega
  · rcases k6 with k6 | k6
    · cases k6
    · exact k6
  · intro p hp
    obtain ⟨j1, j2, j3⟩ := k7 p hp
    rw [h.chans]
    have : (blockSamples : Int) = 128 := rfl
    rw [this] at j2
    exact ⟨j1, by omega, j3⟩

/-! ## Starting -/

/-- The frame playback without looping starts at. -/
def startFrame (r : Rd) : Int := if r.playStart = .arbitrary then r.playbackStart else 0

theorem Reached.fresh' {c : Cache} (hc : c.dev.bytes = m) (hb : c.bufs = []) : Reached m g c :=
  ⟨⟨hc, fun _ h => (by rw [hb] at h; cases h)⟩, fun _ h => (by rw [hb] at h; cases h), by simp [Cache.addrs, hb], by simp [hb]⟩

/-- Opening a file for forward playback without looping, from a frame within the file. -/
theorem playFinish_within (hm : m.length < 2 ^ 31) (hN : 1 ≤ g.N) (hmm0 : 0 ≤ mm) (hmm : 2 * mm + 1 ≤ g.N)
    (hfit : (m.length : Int) / 2 + g.N * g.B ≤ 2147483647) {r : Rd} {f : Dev} (hf : f.bytes = m) (hsz : r.fileSize = m.length)
    (hH : 0 ≤ r.header) (hroom : 2 * r.header < m.length) (hn : 0 < r.nch) (hd : r.dual = false) (hi : r.interp = .none)
    (hl : r.loopType = .none) {R : Int} (h0 : 0 ≤ r.rate) (hR : r.rate ≤ R) (hflt : IsFloat 53 (-1074) r.rem) (hfrac : |r.rem| < 1)
    (hF0 : 0 ≤ r.fileSamples) (hE : 2 * (r.header + startFrame r * r.nch) ≤ m.length)
    (hs0 : 0 ≤ startFrame r) (hs1 : startFrame r ≤ r.fileSamples.tdiv r.nch) :
    ∃ a, playFinish g r f = .ok (true, a) ∧
      InStep m g mm (FwdAny R r.header (r.fileSamples.tdiv r.nch) r.nch) 0 a ⟨a.rd, some (toSamples m)⟩ ∧ a.rd.playing = true ∧
      a.rd.nch = r.nch ∧ a.rd.header = r.header ∧ a.rd.fileSamples = r.fileSamples.tdiv r.nch ∧ a.rd.rate = r.rate ∧ a.rd.rem = r.rem ∧
      a.rd.pos1 = r.header + startFrame r * r.nch := by
  have hB0 : (0 : Int) < g.B := by exact_mod_cast g.B_pos
  have hRq : 0 ≤ R := by
    have : (0 : ℚ) ≤ R := le_trans h0 hR
    exact_mod_cast this
  set F := r.fileSamples.tdiv r.nch with hF
  have hFs : 0 ≤ F := Int.tdiv_nonneg hF0 (le_of_lt hn)
  have hsn : startFrame r * r.nch ≤ F * r.nch := mul_le_mul_of_nonneg_right hs1 (le_of_lt hn)
  have hsn0 : 0 ≤ startFrame r * r.nch := mul_nonneg hs0 (le_of_lt hn)
  unfold playFinish
  rw [hsz, if_neg (by unfold u32; omega), if_neg (by omega)]
  simp only [hl, if_true, ← hF]
  set rd0 : Rd := { r with fileSize := m.length, loopType := .none, fileSamples := F, loopStart := i32 0, loopFinish := i32 F } with hrd0
  set c0 : Cache := { dev := f, loopType := .none, loopStartBlk := i32 (rd0.s2s (i32 0)) / g.B, loopFinishBlk := i32 (rd0.s2s (i32 F)) / g.B } with hc0
  have hp : rd0.reset.pos1 = r.header + startFrame r * r.nch := by
    unfold Rd.reset
    have h0' : rd0.rate ≥ 0 := h0
    simp only [h0', if_true]
    have : ∀ y, y = startFrame r → Rd.posOf { rd0 with pts := fun c => if c < 8 then { rd0.pts c with n := 0 } else rd0.pts c } y =
        r.header + startFrame r * r.nch := by
      rintro y rfl
      exact posOf_eq (r := { rd0 with pts := fun c => if c < 8 then { rd0.pts c with n := 0 } else rd0.pts c })
        ⟨by show -2147483648 ≤ r.header + startFrame r * r.nch; omega, by show r.header + startFrame r * r.nch ≤ 2147483647; omega⟩
    have hs : startFrame r = if rd0.playStart = .arbitrary then rd0.playbackStart else 0 := rfl
    split
    · rename_i e; exact this _ (by rw [hs, e]; rfl)
    · rename_i e; exact this _ (by rw [hs, e]; show i32 0 = 0; decide)
    · rename_i e; exact this _ (by rw [hs, e]; rfl)
  have hr0 : rd0.reset.rate ≥ 0 := h0
  have hpre := FWin.preLoad (m := m) (g := g) (c := c0) (i := r.header + startFrame r * r.nch) (by omega) hN hmm (Reached.fresh' hf rfl) rfl rfl
    (by omega) (by omega)
  obtain ⟨⟨L, hw⟩, hfl⟩ := hpre
  refine ⟨⟨{ rd0.reset with playing := true }, some (c0.preLoad g (r.header + startFrame r * r.nch) true)⟩, ?_, ⟨rfl, hn, ?_, rfl, fun _ => ⟨?_, _, _, L, rfl, hw, ?_, ?_⟩⟩,
    rfl, rfl, rfl, rfl, rfl, rfl, hp⟩
  · have e : c0.preLoad g (r.header + startFrame r * r.nch) true = c0.preLoad g rd0.reset.pos1 (decide (rd0.reset.rate ≥ 0)) := by
      rw [hp, decide_eq_true hr0]
    rw [e]; rfl
  · intro c hc; cases hc; exact hfl
  · refine ⟨⟨hd, hi, rfl, hn⟩, rfl, h0, hR, hflt, hfrac, rfl, rfl, rfl, startFrame r, hs0, by omega, hp⟩
  · simp only [hp]; exact le_refl _
  · simp only [hp]; omega

/-- What `play(filename)` leaves behind when it succeeds, for forward playback without looping. -/
theorem playFinish_fwd (hm : m.length < 2 ^ 31) (hN : 1 ≤ g.N) (hmm0 : 0 ≤ mm) (hmm : 2 * mm + 1 ≤ g.N)
    (hfit : (m.length : Int) / 2 + g.N * g.B ≤ 2147483647) {r : Rd} {f : Dev} (hf : f.bytes = m) (hsz : r.fileSize = m.length)
    (hH : 0 ≤ r.header) (hroom : 2 * r.header < m.length) (hn : 0 < r.nch) (hd : r.dual = false) (hi : r.interp = .none)
    (hl : r.loopType = .none) {R : Int} (h0 : 0 ≤ r.rate) (hR : r.rate ≤ R) (hflt : IsFloat 53 (-1074) r.rem) (hfrac : |r.rem| < 1)
    (hF0 : 0 ≤ r.fileSamples) (hE : 2 * (r.header + r.fileSamples.tdiv r.nch * r.nch) ≤ m.length)
    (hs0 : 0 ≤ startFrame r) (hs1 : startFrame r ≤ r.fileSamples.tdiv r.nch) :
    ∃ a, playFinish g r f = .ok (true, a) ∧
      InStep m g mm (FwdAny R r.header (r.fileSamples.tdiv r.nch) r.nch) 0 a ⟨a.rd, some (toSamples m)⟩ ∧ a.rd.playing = true ∧
      a.rd.nch = r.nch ∧ a.rd.header = r.header ∧ a.rd.fileSamples = r.fileSamples.tdiv r.nch ∧ a.rd.rate = r.rate ∧ a.rd.rem = r.rem ∧
      a.rd.pos1 = r.header + startFrame r * r.nch := by
  have hsn : startFrame r * r.nch ≤ r.fileSamples.tdiv r.nch * r.nch := mul_le_mul_of_nonneg_right hs1 (le_of_lt hn)
  exact playFinish_within hm hN hmm0 hmm hfit hf hsz hH hroom hn hd hi hl h0 hR hflt hfrac hF0 (by omega) hs0 hs1

end TVP
