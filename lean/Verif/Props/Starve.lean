import Verif.Props.Stream
import Verif.Props.StreamRev
import Verif.Lemmas.Starve

/-!
# Property C77: how much of a file is heard with given buffers
-/

namespace TVP
open Spec

namespace Spec

/-- The first block in memory at each update, when the `k`-th update begins with sample `first k`: the buffers hold `N` blocks from there on.
Blocks before the first one read are replaced after each update, but there are only `N` of them. -/
def bufferedFrom (N B : Int) (first : Nat → Int) : Nat → Int
  | 0 => first 0 / B
  | k + 1 => min (first k / B) (bufferedFrom N B first k + N)

/-- The block of audio the `k`-th update sends to channel `ch` at rate `ρ` from frame `x`: the file's sample where it is in memory, otherwise 0. -/
def starvedBlock (m : List Nat) (N B H nch : Int) (x ρ : ℚ) (k ch : Nat) : List Int :=
  (List.range 128).map fun j : Nat =>
    let i := H + ⌊x + ((128 * k + j : Nat) : ℚ) * ρ⌋ * nch + ch
    if i / B < bufferedFrom N B (fun k => H + ⌊x + ((128 * k : Nat) : ℚ) * ρ⌋ * nch) k + N then fileSample m i.toNat else 0

/-- What is transmitted if channel `ch` gets the block `f ch`; a mono file goes to both outputs. -/
def outputs (nch : Nat) (f : Nat → List Int) : List (List Int × Nat) :=
  (List.range nch).map (fun ch => (f ch, ch)) ++ if nch = 1 then [(f 0, 1)] else []

end Spec

/-! ## Players that have just started -/

/-- A file player at frame `x`, its buffers filled from there on. -/
structure Opened (m : List Nat) (g : Geo) (H F nch : Int) (ρ : ℚ) (p : Nat) (R : Int) (x : ℚ) (a : FileReader) : Prop where
  playing : a.rd.playing = true
  fwd : Fwd a.rd p R x
  header : a.rd.header = H
  frames : a.rd.fileSamples = F
  chans : a.rd.nch = nch
  rate : a.rd.rate = ρ
  within : 2 * (H + F * nch) ≤ m.length
  cache : ∃ c L, a.src = some c ∧ c.fails = 0 ∧ FWin m g 0 c ((H + ⌊x⌋ * nch) / g.B) L

/-- Settings for the exact laws: forward playback at a rate on a grid. -/
structure GridSettings (r : Rd) (p : Nat) (R : Int) : Prop where
  forward : ForwardSettings r R
  grid : GridRate p r.rate
  remGrid : OnGrid p r.rem
  rem0 : 0 ≤ r.rem

theorem InStep.opened {m : List Nat} {g : Geo} {H F nch : Int} {p : Nat} {R : Int} {a : FileReader}
    (h : InStep m g 0 (FwdAny R H F nch) 0 a ⟨a.rd, some (toSamples m)⟩) (hp : a.rd.playing = true) (hH : 0 ≤ H) (hF : 0 ≤ F) {s : Int}
    (hs : 0 ≤ s) (hsF : s ≤ F) (hpos : a.rd.pos1 = H + s * nch) (hg : GridRate p a.rd.rate) (hrg : OnGrid p a.rd.rem) (hr0 : 0 ≤ a.rd.rem)
    (hfit : H + nch * (F + R + 1) ≤ 2147483647) (hE : 2 * (H + F * nch) ≤ m.length) :
    Opened m g H F nch a.rd.rate p R (s + a.rd.rem) a := by
  obtain ⟨hf, c, k, L, hc, hw, k1, k2⟩ := h.live hp
  have hR : 0 ≤ R := by
    have : (0 : ℚ) ≤ R := le_trans hf.rate0 hf.rateR
    exact_mod_cast this
  have hfr := hf.frac
  rw [abs_of_nonneg hr0] at hfr
  have hfl : ⌊(s : ℚ) + a.rd.rem⌋ = s := by
    rw [Int.floor_intCast_add, Int.floor_eq_zero_iff.2 ⟨hr0, hfr⟩, add_zero]
  refine ⟨hp, ⟨hf.plain, hf.loop, hf.rate0, hg, (OnGrid.int p s).add hrg, add_nonneg (by exact_mod_cast hs) hr0, ?_, ?_, ?_, ?_, hf.rateR, ?_, ?_⟩,
    hf.header, hf.fs, hf.chans, rfl, hE, c, L, hc, h.fails c hc, ?_⟩
  · rw [hfl, hf.header, hf.chans]; exact hpos
  · rw [hfl]; ring
  · rw [hf.header]; exact hH
  · rw [hf.fs]; exact hF
  · rw [hf.header, hf.chans, hf.fs]; exact hfit
  · rw [hfl, hf.fs]; omega
  · rw [hfl, ← hpos]
    have : k = a.rd.pos1 / g.B := by omega
    rw [← this]; exact hw

/-- What `playRaw` leaves behind: a player in step with one that has the file in memory. -/
theorem raw_start {g : Geo} (hN : 1 ≤ g.N) (hNB : g.N * g.B ≤ 2 ^ 30) (a : FileReader) {m : List Nat}
    (h0 : 0 < m.length) (hm : m.length < 2 ^ 31) (past : Bool) {nch : Nat} (hc : 1 ≤ nch) (hc' : nch ≤ 32767) {R mm : Int}
    (hset : ForwardSettings a.rd R) (hhead : a.rd.header = 0)
    (hstart : a.rd.playStart = .arbitrary → 0 ≤ a.rd.playbackStart ∧ a.rd.playbackStart ≤ (m.length / 2 / nch : Nat))
    (hmm0 : 0 ≤ mm) (hmm : 2 * mm + 1 ≤ g.N) :
    ∃ a', a.playRaw g (some ⟨m, 0, past⟩) nch = .ok (true, a') ∧ a'.rd.playing = true ∧ a'.rd.rate = a.rd.rate ∧ a'.rd.rem = a.rd.rem ∧
      a'.rd.pos1 = 0 + startFrame a.rd * nch ∧ InStep m g mm (FwdAny R 0 (m.length / 2 / nch : Nat) nch) 0 a' ⟨a'.rd, some (toSamples m)⟩ := by
  have hmul : ((m.length / 2 / nch : Nat) : Int) * nch ≤ (m.length / 2 : Nat) := by exact_mod_cast Nat.div_mul_le_self _ _
  have hE : 2 * ((0 : Int) + (m.length / 2 / nch : Nat) * nch) ≤ m.length := by omega
  have hH : 2 * (0 : Int) < m.length := by omega
  have hset' : ForwardSettings (a.close.rd.setNumChannels nch) R :=
    setNumChannels_settings (r := a.close.rd) ⟨⟨hset.plain.dual, hset.plain.interp⟩, hset.loop, hset.rate0, hset.rateR, hset.flt, hset.frac⟩ nch
  obtain ⟨s1, s2, s3, s4, s5, _⟩ := setNumChannels_rest a.close.rd nch
  have hn := setNumChannels_nch_small a.close.rd (n := nch) (by omega) (by omega)
  have hsz : i32 (m.length : Int) = m.length := by unfold i32; omega
  unfold FileReader.playRaw FileReader.playFile
  simp only [Bool.false_eq_true, if_false, Dev.size]
  rw [hsz]
  generalize a.close.rd.setNumChannels nch = r0 at *
  obtain ⟨r1, hr1⟩ : ∃ r1 : Rd, r1 = { r0 with fileSize := (m.length : Int), fileSamples := (m.length : Int).tdiv 2 } := ⟨_, rfl⟩
  rw [← hr1]
  have t1 : r1.header = 0 := by rw [hr1]; exact s1.trans hhead
  have t2 : r1.fileSamples = (m.length : Int).tdiv 2 := by rw [hr1]
  have t3 : r1.nch = nch := by rw [hr1]; exact hn
  have t4 : r1.fileSize = m.length := by rw [hr1]
  have t5 : ForwardSettings r1 R := by
    rw [hr1]; exact ⟨⟨hset'.plain.dual, hset'.plain.interp⟩, hset'.loop, hset'.rate0, hset'.rateR, hset'.flt, hset'.frac⟩
  have t6 : r1.playStart = a.rd.playStart := by rw [hr1]; exact s2
  have t7 : r1.playbackStart = a.rd.playbackStart := by rw [hr1]; exact s3
  have t8 : r1.rate = a.rd.rate := by rw [hr1]; exact s4
  have t9 : r1.rem = a.rd.rem := by rw [hr1]; exact s5
  clear hr1 hsz
  have hst : startFrame r1 = startFrame a.rd := by unfold startFrame; rw [t6, t7]
  have hs01 : 0 ≤ startFrame a.rd ∧ startFrame a.rd ≤ (m.length / 2 / nch : Nat) := by
    unfold startFrame; split
    · rename_i e; exact hstart e
    · exact ⟨le_refl _, Int.natCast_nonneg _⟩
  have hFe : r1.fileSamples.tdiv r1.nch = (m.length / 2 / nch : Nat) := by
    rw [t2, t3, Int.tdiv_eq_ediv_of_nonneg (Int.natCast_nonneg _), Int.tdiv_eq_ediv_of_nonneg (by omega), Int.natCast_ediv, Int.natCast_ediv]; norm_num
  have hNB' : (g.N : Int) * g.B ≤ 2 ^ 30 := by exact_mod_cast hNB
  obtain ⟨a', k1, k2, k3, k4, k5, k6, k7, k8, k9⟩ := playFinish_fwd (m := m) (g := g) (mm := mm) (r := r1) (f := ⟨m, 0, past⟩) (R := R) hm hN hmm0 hmm
    (by omega) rfl t4 (by rw [t1]) (by rw [t1]; exact hH) (by rw [t3]; omega) t5.plain.dual t5.plain.interp t5.loop t5.rate0
    t5.rateR t5.flt t5.frac (by rw [t2]; exact Int.tdiv_nonneg (by omega) (by omega)) (by rw [hFe, t1, t3]; exact hE) (by rw [hst]; exact hs01.1)
    (by rw [hst, hFe]; exact hs01.2)
  rw [hFe, t1, t3] at k2
  exact ⟨a', k1, k3, k7.trans t8, k8.trans t9, by rw [k9, hst, t1, t3], k2⟩

/-- `playRaw` leaves such a player behind. -/
theorem raw_opened {g : Geo} (hN : 1 ≤ g.N) (hNB : g.N * g.B ≤ 2 ^ 30) (a : FileReader) {m : List Nat}
    (h0 : 0 < m.length) (hm : m.length < 2 ^ 31) (past : Bool) {nch : Nat} (hc : 1 ≤ nch) (hc' : nch ≤ 32767) {p : Nat} {R : Int}
    (hset : GridSettings a.rd p R) (hhead : a.rd.header = 0) (hR : nch * (R + 1) ≤ 2 ^ 30)
    (hstart : a.rd.playStart = .arbitrary → 0 ≤ a.rd.playbackStart ∧ a.rd.playbackStart ≤ (m.length / 2 / nch : Nat)) :
    ∃ a', a.playRaw g (some ⟨m, 0, past⟩) nch = .ok (true, a') ∧
      Opened m g 0 (m.length / 2 / nch : Nat) nch a.rd.rate p R (startFrame a.rd + a.rd.rem) a' := by
  have hmul : ((m.length / 2 / nch : Nat) : Int) * nch ≤ (m.length / 2 : Nat) := by exact_mod_cast Nat.div_mul_le_self _ _
  have hE : 2 * ((0 : Int) + (m.length / 2 / nch : Nat) * nch) ≤ m.length := by omega
  have hs01 : 0 ≤ startFrame a.rd ∧ startFrame a.rd ≤ (m.length / 2 / nch : Nat) := by
    unfold startFrame; split
    · rename_i e; exact hstart e
    · exact ⟨le_refl _, Int.natCast_nonneg _⟩
  obtain ⟨a', k1, k3, k7, k8, k9, k2⟩ := raw_start (g := g) (mm := 0) hN hNB a h0 hm past hc hc' hset.forward hhead hstart (le_refl _) (by omega)
  refine ⟨a', k1, ?_⟩
  rw [← k7, ← k8]
  refine k2.opened k3 (le_refl _) (Int.natCast_nonneg _) hs01.1 hs01.2 k9 (by rw [k7]; exact hset.grid)
    (by rw [k8]; exact hset.remGrid) (by rw [k8]; exact hset.rem0) ?_ hE
  have e1 : (nch : Int) * ((m.length / 2 / nch : Nat) + R + 1) = (m.length / 2 / nch : Nat) * nch + nch * (R + 1) := by ring
  rw [e1]; omega

/-- So does `playWav`. -/
theorem wav_opened {g : Geo} (hN : 1 ≤ g.N) (hNB : g.N * g.B ≤ 2 ^ 30) (a : FileReader) {m : List Nat}
    (hb : IsBytes m) (hm : m.length < 2 ^ 31) (past : Bool) (junk : List Nat) (hj : junk.length = 36) (hg : GoodHeader m)
    (hdep : leVal (slice m 34 2) = 16) {off : Nat} (hda : DataAt m off) {nch D : Nat} (hn : leVal (slice m 22 2) = nch) (hc : 1 ≤ nch) (hc' : nch ≤ 32767)
    (hD : leVal (slice m (off + 4) 4) = D) (hdata : off + 8 + D ≤ m.length) (hroom : off + 8 < m.length) {p : Nat} {R : Int}
    (hset : GridSettings a.rd p R) (hR : nch * (R + 1) ≤ 2 ^ 30)
    (hstart : a.rd.playStart = .arbitrary → 0 ≤ a.rd.playbackStart ∧ a.rd.playbackStart ≤ (D / 2 / nch : Nat)) :
    ∃ a', a.playWav g (some ⟨m, 0, past⟩) junk = .ok (true, a') ∧
      Opened m g ((off + 8) / 2 : Nat) (D / 2 / nch : Nat) nch a.rd.rate p R (startFrame a.rd + a.rd.rem) a' := by
  have hmul : ((D / 2 / nch : Nat) : Int) * nch ≤ (D / 2 : Nat) := by exact_mod_cast Nat.div_mul_le_self _ _
  have hE : 2 * ((((off + 8) / 2 : Nat) : Int) + (D / 2 / nch : Nat) * nch) ≤ m.length := by clear hn hD hdep; omega
  obtain ⟨a', k1, k2, k3, k4, k5, k6, k7, k8, k9⟩ := wav_start (g := g) (mm := 0) hN hNB a hb hm past junk hj hg hdep hda hn hc hc' hD hdata hroom hset.forward hstart
    (le_refl _) (by omega)
  have hs01 : 0 ≤ startFrame a.rd ∧ startFrame a.rd ≤ (D / 2 / nch : Nat) := by
    unfold startFrame; split
    · rename_i e; exact hstart e
    · exact ⟨le_refl _, Int.natCast_nonneg _⟩
  refine ⟨a', k1, ?_⟩
  rw [← k6, ← k7]
  refine k9.opened k2 (Int.natCast_nonneg _) (Int.natCast_nonneg _) hs01.1 hs01.2 k8 (by rw [k6]; exact hset.grid)
    (by rw [k7]; exact hset.remGrid) (by rw [k7]; exact hset.rem0) ?_ hE
  have e1 : (nch : Int) * ((D / 2 / nch : Nat) + R + 1) = (D / 2 / nch : Nat) * nch + nch * (R + 1) := by ring
  rw [e1]; clear hn hD hdep; omega

/-! ## The law -/

theorem takeWhile_all {α : Type} {q : α → Bool} : ∀ {l : List α}, (∀ y ∈ l, q y = true) → l.takeWhile q = l
  | [], _ => rfl
  | y :: l, h => by
    rw [List.takeWhile_cons, if_pos (h y List.mem_cons_self), takeWhile_all fun z hz => h z (List.mem_cons_of_mem _ hz)]

theorem forwardFrames_all {x ρ : ℚ} {F : Int} {n : Nat} (h : ∀ j : Nat, j < n → ⌊x + (j : ℚ) * ρ⌋ < F) :
    forwardFrames x ρ F n = (List.range n).map fun k : Nat => ⌊x + k * ρ⌋ := by
  unfold forwardFrames
  refine takeWhile_all fun y hy => ?_
  obtain ⟨j, hj, rfl⟩ := List.mem_map.1 hy
  simpa using h j (List.mem_range.1 hj)

theorem bufferedFrom_le {N B : Int} (hB : 0 < B) {first : Nat → Int} (hmono : ∀ k, first k ≤ first (k + 1)) : ∀ k, bufferedFrom N B first k ≤ first k / B
  | 0 => le_refl _
  | k + 1 => le_trans (min_le_left _ _) (Int.ediv_le_ediv hB (hmono k))

theorem blockOf_frames {nch : Int} (f : Int → Int) {qs : List Int} (hq : qs.length = 128) {ch : Nat} (hch : (ch : Int) < nch) :
    blockOf (qs.map (frameAt f nch)) ch = qs.map fun q => f (q + ch) := by
  unfold blockOf
  rw [List.length_map, hq, show blockSamples - 128 = 0 from rfl, List.replicate_zero, List.append_nil, List.map_map]
  refine List.map_congr_left fun q _ => ?_
  unfold frameAt
  simp only [Function.comp]
  rw [List.getD_eq_getElem?_getD, List.getElem?_map, List.getElem?_range (by omega)]
  rfl

theorem starve_ticks {m : List Nat} {g : Geo} (fp : Fp) (hB : g.B < 16384) (hNB : g.N * g.B ≤ 2 ^ 30) (hb : IsBytes m) (hm : m.length < 2 ^ 31)
    {H F : Int} {nch : Nat} {ρ : ℚ} {p : Nat} {R : Int} {x : ℚ} (hE : 2 * (H + F * nch) ≤ m.length) {w : Nat → Int}
    (hw : ∀ k, w k = bufferedFrom g.N g.B (fun k => H + ⌊x + ((128 * k : Nat) : ℚ) * ρ⌋ * nch) k) (nullOk : Bool) {fuel : Nat} (hf : g.N ≤ fuel + 1) :
    ∀ (n k : Nat) (a : FileReader), (∀ j : Nat, j < 128 * (k + n) → ⌊x + (j : ℚ) * ρ⌋ < F) → a.rd.playing = true → Fwd a.rd p R (x + ((128 * k : Nat) : ℚ) * ρ) →
      a.rd.header = H → a.rd.fileSamples = F → a.rd.nch = nch → a.rd.rate = ρ → (∃ c L, a.src = some c ∧ FWin m g 0 c (w k) L) →
      ∃ fxs a', a.ticks fp g nullOk (fuel + 1) (List.replicate n fun _ => true) = .ok (fxs, a') ∧
        fxs.map (·.transmitted) = (List.range' k n).map fun k => outputs nch (starvedBlock m g.N g.B H nch x ρ k)
  | 0, k, a, _, _, _, _, _, _, _, _ => ⟨[], a, rfl, rfl⟩
  | n + 1, k, a, hF, hp, hfwd, h1, h2, h3, h4, ⟨c, L, hc, hwin⟩ => by
    obtain ⟨r, src⟩ := a
    simp only at hp hfwd h1 h2 h3 h4 hc
    subst hc
    have hB0 : (0 : Int) < g.B := by exact_mod_cast g.B_pos
    have hNB' : (g.N : Int) * g.B ≤ 2 ^ 30 := by exact_mod_cast hNB
    have hn : (0 : Int) < nch := by rw [← h3]; exact hfwd.plain.nch
    have hρ : 0 ≤ ρ := by rw [← h4]; exact hfwd.rate0
    obtain ⟨y, hy⟩ : ∃ y, y = x + ((128 * k : Nat) : ℚ) * ρ := ⟨_, rfl⟩
    have hyj : ∀ j : Nat, y + j * ρ = x + ((128 * k + j : Nat) : ℚ) * ρ := by intro j; rw [hy]; push_cast; ring
    rw [← hy] at hfwd
    have hlt : ∀ j : Nat, j < 128 → ⌊y + (j : ℚ) * ρ⌋ < F := by
      intro j hj
      rw [hyj]
      exact hF _ (by omega)
    obtain ⟨r', t1, t2, t3, t4⟩ := hfwd.trace fp blockSamples r y
    rw [h4, h2, h1, h3, forwardFrames_all (n := blockSamples) hlt] at t1
    rw [h4, h2, forwardFrames_all (n := blockSamples) hlt, List.length_map, List.length_range] at t2
    have hpos : r.pos1 = H + ⌊y⌋ * nch := by rw [hfwd.pos, h1, h3]
    have hy0 : 0 ≤ ⌊y⌋ := Int.floor_nonneg.2 hfwd.x0
    have hyn : 0 ≤ ⌊y⌋ * (nch : Int) := mul_nonneg hy0 (le_of_lt hn)
    have hH0 : 0 ≤ H := by rw [← h1]; exact hfwd.header0
    have hw1 : w k ≤ r.pos1 / g.B := by
      rw [hpos, hw, hy]
      refine bufferedFrom_le hB0 (fun k => ?_) k
      have : ⌊x + ((128 * k : Nat) : ℚ) * ρ⌋ ≤ ⌊x + ((128 * (k + 1) : Nat) : ℚ) * ρ⌋ := by
        refine Int.floor_le_floor ?_
        have : ((128 * k : Nat) : ℚ) * ρ ≤ ((128 * (k + 1) : Nat) : ℚ) * ρ := mul_le_mul_of_nonneg_right (by exact_mod_cast (by omega : 128 * k ≤ 128 * (k + 1))) hρ
        linarith
      have := mul_le_mul_of_nonneg_right this (le_of_lt hn)
      omega
    obtain ⟨a1, e1, _, e3⟩ := starve_tick (fp := fp) hB hb (by omega) (by omega) hwin hp hfwd.plain hfwd.loop (by rw [hpos]; omega) hw1 t1 t2.rate0
      (Or.inr (by
        rw [List.mem_map]
        refine ⟨⌊y⌋, List.mem_map.2 ⟨0, by simp [blockSamples], by simp⟩, by rw [hpos]⟩)) hE
      (by
        intro q hq
        obtain ⟨z, hz, rfl⟩ := List.mem_map.1 hq
        obtain ⟨j, hj, rfl⟩ := List.mem_map.1 hz
        have hj' : j < 128 := List.mem_range.1 hj
        have i1 : ⌊y⌋ ≤ ⌊y + (j : ℚ) * ρ⌋ := Int.floor_le_floor (by have : 0 ≤ (j : ℚ) * ρ := mul_nonneg (by positivity) hρ; linarith)
        have i2 := hlt j hj'
        have i3 := mul_le_mul_of_nonneg_right i1 (le_of_lt hn)
        have i4 : (⌊y + (j : ℚ) * ρ⌋ + 1) * (nch : Int) ≤ F * nch := mul_le_mul_of_nonneg_right (by omega) (le_of_lt hn)
        rw [add_mul, one_mul] at i4
        rw [hpos, h3]
        exact ⟨by omega, by omega⟩) nullOk hf (alloc := fun _ => true) (by simp)
    obtain ⟨c', e4, e5, _⟩ := e3 (by rw [List.length_map, List.length_map, List.length_range])
    subst e4
    obtain ⟨fxs, a2, k1, k2⟩ := starve_ticks fp hB hNB hb hm hE hw nullOk hf n (k + 1) ⟨r', some c'⟩ (by intro j hj; exact hF j (by omega))
      (t3.playing.trans hp)
      (by
        have : x + ((128 * (k + 1) : Nat) : ℚ) * ρ = y + ((blockSamples : Nat) : ℚ) * ρ := by rw [hy, show blockSamples = 128 from rfl]; push_cast; ring
        rw [this]; exact t2) (t3.header.trans h1) (t3.fileSamples.trans h2) (t3.nch.trans h3) (t4.trans h4)
      ⟨c', L, rfl, by
        rw [hw (k + 1)]
        unfold bufferedFrom
        rw [← hw k]
        rw [← hy, ← hpos]
        exact e5⟩
    obtain ⟨fx, hfx⟩ : ∃ fx, fx = fxOf r.nch (List.map (frameAt (heard m g (w k)) r.nch)
      (List.map (fun i => H + i * (nch : Int)) (List.map (fun j : Nat => ⌊y + (j : ℚ) * ρ⌋) (List.range blockSamples)))) (fun _ => true) := ⟨_, rfl⟩
    rw [← hfx] at e1
    refine ⟨fx :: fxs, a2, ?_, ?_⟩
    · rw [List.replicate_succ]
      unfold FileReader.ticks
      rw [e1]
      simp only [ok_bind, k1]
      rfl
    · rw [List.map_cons, k2, List.range'_succ, List.map_cons]
      congr 1
      rw [hfx, h3]
      unfold fxOf outputs
      simp only [Int.toNat_natCast]
      have hblk : ∀ ch : Nat, ch < nch → blockOf (((List.range blockSamples).map fun j : Nat => ⌊y + (j : ℚ) * ρ⌋).map (fun i => H + i * (nch : Int)) |>.map (frameAt (heard m g (w k)) nch)) ch =
          starvedBlock m g.N g.B H nch x ρ k ch := by
        intro ch hch
        rw [blockOf_frames _ (by simp [blockSamples]) (by exact_mod_cast hch), List.map_map, List.map_map]
        unfold starvedBlock
        refine List.map_congr_left fun j _ => ?_
        simp only [Function.comp]
        unfold heard
        rw [hyj, ← hw k]
      congr 1
      · refine List.map_congr_left fun ch hch => ?_
        rw [hblk ch (List.mem_range.1 hch)]
      · by_cases h1' : nch = 1
        · subst h1'
          simp only [if_true, Nat.cast_one]
          have := hblk 0 (by omega)
          simp only [Nat.cast_one] at this
          rw [this]
        · rw [if_neg h1', if_neg (by exact_mod_cast h1')]

theorem Opened.law {m : List Nat} {g : Geo} (fp : Fp) (hB : g.B < 16384) (hNB : g.N * g.B ≤ 2 ^ 30) (hb : IsBytes m) (hm : m.length < 2 ^ 31)
    {H F : Int} {nch : Nat} {ρ : ℚ} {p : Nat} {R : Int} {x : ℚ} {a : FileReader} (h : Opened m g H F nch ρ p R x a) (nullOk : Bool) {fuel : Nat} (hf : g.N ≤ fuel + 1)
    (n : Nat) (hn : ∀ j : Nat, j < 128 * n → ⌊x + (j : ℚ) * ρ⌋ < F) :
    ∃ fxs a', a.ticks fp g nullOk (fuel + 1) (List.replicate n fun _ => true) = .ok (fxs, a') ∧
      fxs.map (·.transmitted) = (List.range n).map fun k => outputs nch (starvedBlock m g.N g.B H nch x ρ k) := by
  obtain ⟨c, L, hc, _, hw⟩ := h.cache
  obtain ⟨fxs, a', k1, k2⟩ := starve_ticks fp hB hNB hb hm h.within (w := bufferedFrom g.N g.B (fun k => H + ⌊x + ((128 * k : Nat) : ℚ) * ρ⌋ * nch)) (fun _ => rfl) nullOk hf n 0 a
    (by intro j hj; exact hn j (by omega)) h.playing (by simpa using h.fwd) h.header h.frames h.chans h.rate
    ⟨c, L, hc, by unfold bufferedFrom; simpa using hw⟩
  exact ⟨fxs, a', k1, by rw [k2, List.range_eq_range']⟩

/-! ## When nothing is lost -/

theorem takeWhile_imp {α : Type} {f : α → Bool} : ∀ {l : List α} {q : α}, q ∈ l.takeWhile f → f q = true
  | a :: l, q, h => by
    rw [List.takeWhile_cons] at h
    split at h
    · rename_i hf
      rcases List.mem_cons.1 h with rfl | h
      · exact hf
      · exact takeWhile_imp h
    · cases h

theorem mem_forwardFrames {x ρ : ℚ} {F q : Int} {n : Nat} (h : q ∈ forwardFrames x ρ F n) : ∃ j : Nat, j < n ∧ q = ⌊x + (j : ℚ) * ρ⌋ ∧ q < F := by
  unfold forwardFrames at h
  have h1 := takeWhile_imp h
  obtain ⟨j, hj, e⟩ := List.mem_map.1 ((List.takeWhile_sublist _).subset h)
  exact ⟨j, List.mem_range.1 hj, e.symm, by simpa using h1⟩

/-- `W k x` says that with the buffers filled from block `k` on, an update starting at frame `x` finds what it needs. -/
theorem Opened.like {m : List Nat} {g : Geo} (fp : Fp) (hB : g.B < 16384) (hNB : g.N * g.B ≤ 2 ^ 30) (hb : IsBytes m) (hm : m.length < 2 ^ 31)
    {H F nch : Int} {ρ : ℚ} {p : Nat} {R : Int} {x : ℚ} {a : FileReader} (h : Opened m g H F nch ρ p R x a) (W : Int → ℚ → Prop)
    (hW1 : ∀ k x, 0 ≤ x → W k x → ∀ j : Nat, j < 128 → (H + ⌊x + (j : ℚ) * ρ⌋ * nch + nch - 1) / g.B < k + g.N)
    (hW2 : ∀ k x, 0 ≤ x → W k x → W ((H + ⌊x⌋ * nch) / g.B) (x + 128 * ρ)) (hW : W ((H + ⌊x⌋ * nch) / g.B) x)
    (nullOk : Bool) {fuel : Nat} (hf : g.N ≤ fuel + 1) : LikeInMemory fp g nullOk (fuel + 1) a m := by
  have hB0 : (0 : Int) < g.B := by exact_mod_cast g.B_pos
  have hNB' : (g.N : Int) * g.B ≤ 2 ^ 30 := by exact_mod_cast hNB
  have hE := h.within
  refine LikeInMemoryAt.plain (ok := fun _ _ => False) ?_
  refine likeAt_of hb (fun a b => b.rd = a.rd ∧ 0 < a.rd.nch ∧ (∀ c, a.src = some c → c.fails = 0) ∧ b.src = some (toSamples m) ∧
    (a.rd.playing = true → ∃ x c k L, Fwd a.rd p R x ∧ a.rd.header = H ∧ a.rd.fileSamples = F ∧ a.rd.nch = nch ∧ a.rd.rate = ρ ∧ a.src = some c ∧
      FWin m g 0 c k L ∧ k ≤ (H + ⌊x⌋ * nch) / g.B ∧ W k x)) (fun a b h => ⟨h.1, h.2.2.1⟩) ?_ (fun _ _ _ _ h => h.elim) ?_
  · rintro ⟨r, src⟩ ⟨r2, src2⟩ alloc ⟨h1, hn, hfl, h2, hlive⟩
    simp only at h1 h2 hlive hn hfl
    rw [h1, h2]; clear h1 h2 r2 src2
    cases hp : r.playing with
    | false =>
      unfold FileReader.tick ArrayReader.tick FileReader.update ArrayReader.update
      simp only
      rw [hp, update_off hn, update_off hn]
      refine ⟨{}, ⟨r, src⟩, ⟨r, some (toSamples m)⟩, rfl, rfl, rfl, hn, hfl, rfl, fun h => ?_⟩
      rw [hp] at h; cases h
    | true =>
      by_cases ha : ((List.range r.nch.toNat).filter alloc).length = (List.range r.nch.toNat).length
      · obtain ⟨x, c, k, L, hfwd, t1, t2, t3, t4, hc, hwin, hk, hWk⟩ := hlive hp
        subst hc
        obtain ⟨r', s1, s2, s3, s4⟩ := hfwd.trace fp blockSamples r x
        rw [t4, t2, t1, t3] at s1
        rw [t4, t2] at s2
        have hn' : 0 < nch := by rw [← t3]; exact hn
        have hρ : 0 ≤ ρ := by rw [← t4]; exact hfwd.rate0
        have hpos : r.pos1 = H + ⌊x⌋ * nch := by rw [hfwd.pos, t1, t3]
        have hx0 : 0 ≤ ⌊x⌋ := Int.floor_nonneg.2 hfwd.x0
        have hxn : 0 ≤ ⌊x⌋ * nch := mul_nonneg hx0 (le_of_lt hn')
        have hH0 : 0 ≤ H := by rw [← t1]; exact hfwd.header0
        obtain ⟨qs, hqs⟩ : ∃ qs, qs = forwardFrames x ρ F blockSamples := ⟨_, rfl⟩
        rw [← hqs] at s1 s2
        have hq : ∀ q ∈ qs, ∃ j : Nat, j < 128 ∧ q = ⌊x + (j : ℚ) * ρ⌋ ∧ q < F := by
          intro q hq; rw [hqs] at hq; exact mem_forwardFrames hq
        have hps0 : qs.map (fun i => H + i * nch) = [] ∨ r.pos1 ∈ qs.map (fun i => H + i * nch) := by
          rw [hqs, show blockSamples = 127 + 1 from rfl, forwardFrames_succ]
          by_cases hx : ⌊x⌋ < F
          · rw [if_pos hx, hpos]; right; rw [List.map_cons]; exact List.mem_cons_self
          · rw [if_neg hx]; exact Or.inl rfl
        have hpsm : ∀ q ∈ qs.map (fun i => H + i * nch), r.pos1 ≤ q ∧ q + r.nch ≤ H + F * nch := by
          intro q hq'
          obtain ⟨z, hz, rfl⟩ := List.mem_map.1 hq'
          obtain ⟨j, hj, e, hlt⟩ := hq z hz
          have i1 : ⌊x⌋ ≤ z := by
            rw [e]; exact Int.floor_le_floor (by have : 0 ≤ (j : ℚ) * ρ := mul_nonneg (by positivity) hρ; linarith)
          have i3 := mul_le_mul_of_nonneg_right i1 (le_of_lt hn')
          have i4 : (z + 1) * nch ≤ F * nch := mul_le_mul_of_nonneg_right (by omega) (le_of_lt hn')
          rw [add_mul, one_mul] at i4
          rw [hpos, t3]
          exact ⟨by omega, by omega⟩
        have hall : ∀ i ∈ framesIdx r.nch (qs.map (fun i => H + i * nch)), InFile m i ∧ i / g.B < k + g.N := by
          intro i hi
          obtain ⟨q, hq', q1, q2⟩ := mem_framesIdx.1 hi
          have i1 := hpsm q hq'
          obtain ⟨z, hz, rfl⟩ := List.mem_map.1 hq'
          obtain ⟨j, hj, e, hlt⟩ := hq z hz
          refine ⟨⟨by omega, by omega⟩, lt_of_le_of_lt (Int.ediv_le_ediv hB0 ?_) (hW1 k x hfwd.x0 hWk j hj)⟩
          rw [← e]; omega
        obtain ⟨a1, e1, e2, e3⟩ := starve_tick (fp := fp) hB hb (by omega) (by omega) hwin hp hfwd.plain hfwd.loop (by rw [hpos]; omega) (by rw [hpos]; exact hk) s1 s2.rate0
          hps0 hE hpsm nullOk hf ha
        have ea := array_tick (fp := fp) (fuel := fuel) (m := m) (by omega) hp hfwd.plain hfwd.loop (by rw [hpos]; omega) s1 hE hpsm ha
        have hfr : (qs.map (fun i => H + i * nch)).map (frameAt (heard m g k) r.nch) =
            (qs.map (fun i => H + i * nch)).map (frameAt (fun i => (toSamples m).getD i.toNat 0) r.nch) := by
          refine List.map_congr_left fun q hq' => ?_
          unfold frameAt
          refine List.map_congr_left fun d hd => ?_
          obtain ⟨hin, hlt⟩ := hall (q + d) (mem_framesIdx.2 ⟨q, hq', by omega, by rw [List.mem_range] at hd; omega⟩)
          unfold heard
          simp only
          rw [if_pos hlt, toSamples_raw m _ (by have := hin.1; have := hin.2; omega)]
          exact (rawSample_eq hb (by have := hin.1; have := hin.2; omega)).symm
        rw [hfr] at e1
        refine ⟨_, a1, _, e1, ea, ?_⟩
        by_cases hfull : (qs.map (fun i => H + i * nch)).length = blockSamples
        · obtain ⟨c', w1, w2, w3⟩ := e3 hfull
          subst w1
          rw [if_pos hfull]
          have hlen : qs.length = blockSamples := by rw [← hfull, List.length_map]
          refine ⟨rfl, by simp only; rw [s3.nch]; exact hn, ?_, rfl, fun _ => ⟨x + 128 * ρ, c', (H + ⌊x⌋ * nch) / g.B, L, ?_, s3.header.trans t1, s3.fileSamples.trans t2,
            s3.nch.trans t3, s4.trans t4, rfl, ?_, ?_, hW2 k x hfwd.x0 hWk⟩⟩
          · intro c2 h2
            cases h2
            rw [w3 fun i hi => (hall i hi).2]
            exact hfl c rfl
          · rw [hlen] at s2
            exact_mod_cast s2
          · have hne : r.pos1 ∈ qs.map (fun i => H + i * nch) := by
              rcases hps0 with e | e
              · rw [e] at hfull; exact absurd hfull (by decide)
              · exact e
            have := (hall r.pos1 (mem_framesIdx.2 ⟨_, hne, le_refl _, by omega⟩)).2
            rw [min_eq_left (le_of_lt this), hpos] at w2
            exact w2
          · refine Int.ediv_le_ediv hB0 ?_
            have : ⌊x⌋ ≤ ⌊x + 128 * ρ⌋ := Int.floor_le_floor (by linarith)
            have := mul_le_mul_of_nonneg_right this (le_of_lt hn')
            omega
        · obtain ⟨s, w1⟩ := e2 hfull
          subst w1
          rw [if_neg hfull]
          refine ⟨rfl, ?_, ?_, rfl, fun h => ?_⟩
          · simp only [FileReader.close, Rd.stop]; rw [s3.nch]; exact hn
          · intro c2 h2; simp only [FileReader.close] at h2; cases h2
          · simp only [FileReader.close, Rd.stop] at h; cases h
      · unfold FileReader.tick ArrayReader.tick FileReader.update ArrayReader.update
        simp only
        rw [hp, update_short hn _ _ _ ha, update_short hn _ _ _ ha]
        exact ⟨_, ⟨r, src⟩, ⟨r, some (toSamples m)⟩, rfl, rfl, rfl, hn, hfl, rfl, hlive⟩
  · obtain ⟨c, L, hc, hfl, hw⟩ := h.cache
    refine ⟨rfl, h.fwd.plain.nch, fun c2 h2 => ?_, rfl, fun _ => ⟨x, c, _, L, h.fwd, h.header, h.frames, h.chans, h.rate, hc, hw, le_refl _, hW⟩⟩
    rw [hc] at h2; cases h2; exact hfl

/-- A new player. -/
def exNew : FileReader := { rd := {} }

theorem exNew_settings : GridSettings exNew.rd 0 1 :=
  ⟨⟨⟨rfl, rfl⟩, rfl, by norm_num [exNew], by norm_num [exNew], by
    show IsFloat 53 (-1074) 0
    simpa using Rounding.isFloat_of (p := 53) (emin := -1074) (by norm_num) (m := 0) (e := 0) (by norm_num) (by norm_num), by norm_num [exNew]⟩,
    GridRate.one (by norm_num), ⟨0, by norm_num [exNew]⟩, le_refl _⟩

/-- 512 samples, all 257. -/
def exHeld : List Nat := List.replicate 1024 1

theorem exHeld_bytes : IsBytes exHeld := by
  intro b hb
  rw [List.eq_of_mem_replicate hb]; decide

/-- The same as a WAV file. -/
def exHeldWav (channels : Nat) : List Nat :=
  [82, 73, 70, 70, 36, 4, 0, 0, 87, 65, 86, 69, 102, 109, 116, 32, 16, 0, 0, 0, 1, 0, channels, 0, 68, 172, 0, 0, 136, 88, 1, 0, 2, 0, 16, 0, 100, 97, 116, 97, 0, 4, 0, 0] ++ exHeld

theorem exHeldWav_bytes {n : Nat} (h : n < 256) : IsBytes (exHeldWav n) := by
  intro b hb
  rcases List.mem_append.1 hb with hb | hb
  · fin_cases hb <;> first | exact h | decide
  · exact exHeld_bytes b hb

/-! ## What is heard -/

/-- **C77**, what a raw file played forward sounds like with `g.N` buffers of `g.B` samples: the samples at or beyond block `bufferedFrom + g.N` are replaced
by silence, all others are the file's. -/
theorem C77_raw_law (fp : Fp) {g : Geo} (hN : 1 ≤ g.N) (hB : g.B < 16384) (hNB : g.N * g.B ≤ 2 ^ 30) (a : FileReader) {m : List Nat}
    (hb : IsBytes m) (h0 : 0 < m.length) (hm : m.length < 2 ^ 31) (past : Bool) {nch : Nat} (hc : 1 ≤ nch) (hc' : nch ≤ 32767) {p : Nat} {R : Int}
    (hset : GridSettings a.rd p R) (hhead : a.rd.header = 0) (hR : nch * (R + 1) ≤ 2 ^ 30)
    (hstart : a.rd.playStart = .arbitrary → 0 ≤ a.rd.playbackStart ∧ a.rd.playbackStart ≤ (m.length / 2 / nch : Nat))
    (nullOk : Bool) {fuel : Nat} (hf : g.N ≤ fuel + 1) (n : Nat)
    (hlong : ∀ j : Nat, j < 128 * n → ⌊startFrame a.rd + a.rd.rem + (j : ℚ) * a.rd.rate⌋ < (m.length / 2 / nch : Nat)) :
    ∃ a', a.playRaw g (some ⟨m, 0, past⟩) nch = .ok (true, a') ∧
      ∃ fxs a'', a'.ticks fp g nullOk (fuel + 1) (List.replicate n fun _ => true) = .ok (fxs, a'') ∧
        fxs.map (·.transmitted) = (List.range n).map fun k => outputs nch (starvedBlock m g.N g.B (0 : Int) nch (startFrame a.rd + a.rd.rem) a.rd.rate k) := by
  obtain ⟨a', k1, k2⟩ := raw_opened hN hNB a h0 hm past hc hc' hset hhead hR hstart
  exact ⟨a', k1, k2.law fp hB hNB hb hm nullOk hf n (by exact_mod_cast hlong)⟩

example : ∃ a', exNew.playRaw flashGeo (some ⟨exHeld, 0, false⟩) (2 : Nat) = .ok (true, a') ∧
    ∃ fxs a'', a'.ticks Fp.ieee flashGeo true (1 + 1) (List.replicate 2 fun _ => true) = .ok (fxs, a'') ∧
      fxs.map (·.transmitted) = (List.range 2).map fun k => outputs 2 (starvedBlock exHeld flashGeo.N flashGeo.B (0 : Int) (2 : Nat) (startFrame exNew.rd + exNew.rd.rem) exNew.rd.rate k) :=
  C77_raw_law Fp.ieee (g := flashGeo) (by decide +kernel) (by decide +kernel) (by decide +kernel) exNew exHeld_bytes (by decide +kernel) (by decide +kernel) false (nch := 2) (by decide +kernel) (by decide +kernel) exNew_settings rfl (by decide +kernel) (by intro h; cases h) true (by decide +kernel) 2 (by
      intro j hj
      rw [show exHeld.length = 1024 from List.length_replicate]
      rw [show (startFrame exNew.rd : ℚ) + exNew.rd.rem + (j : ℚ) * exNew.rd.rate = ((j : Int) : ℚ) by simp [startFrame, exNew], Int.floor_intCast]
      exact_mod_cast (by omega : j < 128 * 2))

/-- **C77**, the same for a WAV file. -/
theorem C77_wav_law (fp : Fp) {g : Geo} (hN : 1 ≤ g.N) (hB : g.B < 16384) (hNB : g.N * g.B ≤ 2 ^ 30) (a : FileReader) {m : List Nat}
    (hb : IsBytes m) (hm : m.length < 2 ^ 31) (past : Bool) (junk : List Nat) (hj : junk.length = 36) (hg : GoodHeader m)
    (hdep : leVal (slice m 34 2) = 16) {off : Nat} (hda : DataAt m off) {nch D : Nat} (hn : leVal (slice m 22 2) = nch) (hc : 1 ≤ nch) (hc' : nch ≤ 32767)
    (hD : leVal (slice m (off + 4) 4) = D) (hdata : off + 8 + D ≤ m.length) (hroom : off + 8 < m.length) {p : Nat} {R : Int}
    (hset : GridSettings a.rd p R) (hR : nch * (R + 1) ≤ 2 ^ 30)
    (hstart : a.rd.playStart = .arbitrary → 0 ≤ a.rd.playbackStart ∧ a.rd.playbackStart ≤ (D / 2 / nch : Nat))
    (nullOk : Bool) {fuel : Nat} (hf : g.N ≤ fuel + 1) (n : Nat)
    (hlong : ∀ j : Nat, j < 128 * n → ⌊startFrame a.rd + a.rd.rem + (j : ℚ) * a.rd.rate⌋ < (D / 2 / nch : Nat)) :
    ∃ a', a.playWav g (some ⟨m, 0, past⟩) junk = .ok (true, a') ∧
      ∃ fxs a'', a'.ticks fp g nullOk (fuel + 1) (List.replicate n fun _ => true) = .ok (fxs, a'') ∧
        fxs.map (·.transmitted) = (List.range n).map fun k => outputs nch (starvedBlock m g.N g.B ((off + 8) / 2 : Nat) nch (startFrame a.rd + a.rd.rem) a.rd.rate k) := by
  obtain ⟨a', k1, k2⟩ := wav_opened hN hNB a hb hm past junk hj hg hdep hda hn hc hc' hD hdata hroom hset hR hstart
  exact ⟨a', k1, k2.law fp hB hNB hb hm nullOk hf n (by exact_mod_cast hlong)⟩

example : ∃ a', exNew.playWav flashGeo (some ⟨exHeldWav 2, 0, false⟩) (List.replicate 36 7) = .ok (true, a') ∧
    ∃ fxs a'', a'.ticks Fp.ieee flashGeo true (1 + 1) (List.replicate 2 fun _ => true) = .ok (fxs, a'') ∧
      fxs.map (·.transmitted) = (List.range 2).map fun k => outputs 2 (starvedBlock (exHeldWav 2) flashGeo.N flashGeo.B ((36 + 8) / 2 : Nat) (2 : Nat) (startFrame exNew.rd + exNew.rd.rem) exNew.rd.rate k) :=
  C77_wav_law Fp.ieee (g := flashGeo) (by decide +kernel) (by decide +kernel) (by decide +kernel) exNew (exHeldWav_bytes (n := 2) (by decide +kernel)) (by decide +kernel) false (List.replicate 36 7) (by decide +kernel) (by decide +kernel) (by decide +kernel) (off := 36) ⟨Or.inl ⟨rfl, by decide +kernel⟩, by decide +kernel, by decide +kernel⟩
    (nch := 2) (D := 1024) (by decide +kernel) (by decide +kernel) (by decide +kernel) (by decide +kernel) (by decide +kernel) (by decide +kernel) exNew_settings (by decide +kernel) (by intro h; cases h) true (by decide +kernel) 2 (by
      intro j hj
      rw [show (startFrame exNew.rd : ℚ) + exNew.rd.rem + (j : ℚ) * exNew.rd.rate = ((j : Int) : ℚ) by simp [startFrame, exNew], Int.floor_intCast]
      exact_mod_cast (by omega : j < 128 * 2))

/-! ## Too few buffers -/

/-- If one update uses up all the buffers, everything after the first update is silence. -/
theorem starved_silent {m : List Nat} {N B H : Int} {nch : Nat} {x ρ : ℚ} (hB : 0 < B) (hρ : 0 ≤ ρ) (h : N * B ≤ nch * ⌊128 * ρ⌋) (k ch : Nat) :
    starvedBlock m N B H nch x ρ (k + 1) ch = List.replicate 128 0 := by
  unfold starvedBlock
  rw [List.eq_replicate_iff]
  refine ⟨by rw [List.length_map, List.length_range], fun y hy => ?_⟩
  obtain ⟨j, hj, rfl⟩ := List.mem_map.1 hy
  simp only
  rw [if_neg]
  unfold bufferedFrom
  rw [not_lt]
  refine le_trans (add_le_add_left (min_le_left _ _) N) ?_
  rw [← Int.add_mul_ediv_right _ _ (by omega)]
  refine Int.ediv_le_ediv hB ?_
  have h1 : ⌊x + ((128 * k : Nat) : ℚ) * ρ⌋ + ⌊128 * ρ⌋ ≤ ⌊x + ((128 * (k + 1) + j : Nat) : ℚ) * ρ⌋ := by
    refine le_trans (Int.le_floor_add _ _) (Int.floor_le_floor ?_)
    have : 0 ≤ (j : ℚ) * ρ := mul_nonneg (by positivity) hρ
    push_cast
    linarith
  have h2 := mul_le_mul_of_nonneg_right h1 (Int.natCast_nonneg nch)
  rw [add_mul, mul_comm ⌊128 * ρ⌋] at h2
  omega

/-- **C77** is violated when one update uses as many samples as there are in all the buffers: whatever the file, everything after the first update is
silence, to the end of the file.  This is the case for stereo files with the buffers of the serial flash reader. -/
theorem C77_raw_silence_refuted (fp : Fp) {g : Geo} (hN : 1 ≤ g.N) (hB : g.B < 16384) (hNB : g.N * g.B ≤ 2 ^ 30) (a : FileReader) {m : List Nat}
    (hb : IsBytes m) (h0 : 0 < m.length) (hm : m.length < 2 ^ 31) (past : Bool) {nch : Nat} (hc : 1 ≤ nch) (hc' : nch ≤ 32767) {p : Nat} {R : Int}
    (hset : GridSettings a.rd p R) (hhead : a.rd.header = 0) (hR : nch * (R + 1) ≤ 2 ^ 30)
    (hstart : a.rd.playStart = .arbitrary → 0 ≤ a.rd.playbackStart ∧ a.rd.playbackStart ≤ (m.length / 2 / nch : Nat))
    (hfast : (g.N : Int) * g.B ≤ nch * ⌊128 * a.rd.rate⌋) (nullOk : Bool) {fuel : Nat} (hf : g.N ≤ fuel + 1) (n : Nat)
    (hlong : ∀ j : Nat, j < 128 * n → ⌊startFrame a.rd + a.rd.rem + (j : ℚ) * a.rd.rate⌋ < (m.length / 2 / nch : Nat)) :
    ∃ a', a.playRaw g (some ⟨m, 0, past⟩) nch = .ok (true, a') ∧
      ∃ fxs a'', a'.ticks fp g nullOk (fuel + 1) (List.replicate n fun _ => true) = .ok (fxs, a'') ∧ fxs.length = n ∧
        ∀ k, 1 ≤ k → k < n → (fxs.map (·.transmitted))[k]? = some (outputs nch fun _ => List.replicate 128 0) := by
  obtain ⟨a', k1, k2⟩ := raw_opened hN hNB a h0 hm past hc hc' hset hhead hR hstart
  obtain ⟨fxs, a'', e1, e2⟩ := k2.law fp hB hNB hb hm nullOk hf n (by exact_mod_cast hlong)
  refine ⟨a', k1, fxs, a'', e1, by simpa using congrArg List.length e2, fun k hk hkn => ?_⟩
  obtain ⟨i, rfl⟩ : ∃ i, k = i + 1 := ⟨k - 1, by omega⟩
  rw [e2, List.getElem?_map, List.getElem?_range hkn, Option.map_some]
  congr 2
  funext ch
  exact starved_silent (by exact_mod_cast g.B_pos) hset.forward.rate0 hfast i ch

example : ∃ a', exNew.playRaw flashGeo (some ⟨exHeld, 0, false⟩) (2 : Nat) = .ok (true, a') ∧
    ∃ fxs a'', a'.ticks Fp.ieee flashGeo true (1 + 1) (List.replicate 2 fun _ => true) = .ok (fxs, a'') ∧ fxs.length = 2 ∧
      ∀ k, 1 ≤ k → k < 2 → (fxs.map (·.transmitted))[k]? = some (outputs 2 fun _ => List.replicate 128 0) :=
  C77_raw_silence_refuted Fp.ieee (g := flashGeo) (by decide +kernel) (by decide +kernel) (by decide +kernel) exNew exHeld_bytes (by decide +kernel) (by decide +kernel) false (nch := 2) (by decide +kernel) (by decide +kernel) exNew_settings rfl (by decide +kernel) (by intro h; cases h)
    (by rw [show (128 : ℚ) * exNew.rd.rate = ((128 : Int) : ℚ) by norm_num [exNew], Int.floor_intCast]; decide) true (by decide +kernel) 2 (by
      intro j hj
      rw [show exHeld.length = 1024 from List.length_replicate]
      rw [show (startFrame exNew.rd : ℚ) + exNew.rd.rem + (j : ℚ) * exNew.rd.rate = ((j : Int) : ℚ) by simp [startFrame, exNew], Int.floor_intCast]
      exact_mod_cast (by omega : j < 128 * 2))

/-- The same for WAV files. -/
theorem C77_wav_silence_refuted (fp : Fp) {g : Geo} (hN : 1 ≤ g.N) (hB : g.B < 16384) (hNB : g.N * g.B ≤ 2 ^ 30) (a : FileReader) {m : List Nat}
    (hb : IsBytes m) (hm : m.length < 2 ^ 31) (past : Bool) (junk : List Nat) (hj : junk.length = 36) (hg : GoodHeader m)
    (hdep : leVal (slice m 34 2) = 16) {off : Nat} (hda : DataAt m off) {nch D : Nat} (hn : leVal (slice m 22 2) = nch) (hc : 1 ≤ nch) (hc' : nch ≤ 32767)
    (hD : leVal (slice m (off + 4) 4) = D) (hdata : off + 8 + D ≤ m.length) (hroom : off + 8 < m.length) {p : Nat} {R : Int}
    (hset : GridSettings a.rd p R) (hR : nch * (R + 1) ≤ 2 ^ 30)
    (hstart : a.rd.playStart = .arbitrary → 0 ≤ a.rd.playbackStart ∧ a.rd.playbackStart ≤ (D / 2 / nch : Nat))
    (hfast : (g.N : Int) * g.B ≤ nch * ⌊128 * a.rd.rate⌋) (nullOk : Bool) {fuel : Nat} (hf : g.N ≤ fuel + 1) (n : Nat)
    (hlong : ∀ j : Nat, j < 128 * n → ⌊startFrame a.rd + a.rd.rem + (j : ℚ) * a.rd.rate⌋ < (D / 2 / nch : Nat)) :
    ∃ a', a.playWav g (some ⟨m, 0, past⟩) junk = .ok (true, a') ∧
      ∃ fxs a'', a'.ticks fp g nullOk (fuel + 1) (List.replicate n fun _ => true) = .ok (fxs, a'') ∧ fxs.length = n ∧
        ∀ k, 1 ≤ k → k < n → (fxs.map (·.transmitted))[k]? = some (outputs nch fun _ => List.replicate 128 0) := by
  obtain ⟨a', k1, k2⟩ := wav_opened hN hNB a hb hm past junk hj hg hdep hda hn hc hc' hD hdata hroom hset hR hstart
  obtain ⟨fxs, a'', e1, e2⟩ := k2.law fp hB hNB hb hm nullOk hf n (by exact_mod_cast hlong)
  refine ⟨a', k1, fxs, a'', e1, by simpa using congrArg List.length e2, fun k hk hkn => ?_⟩
  obtain ⟨i, rfl⟩ : ∃ i, k = i + 1 := ⟨k - 1, by omega⟩
  rw [e2, List.getElem?_map, List.getElem?_range hkn, Option.map_some]
  congr 2
  funext ch
  exact starved_silent (by exact_mod_cast g.B_pos) hset.forward.rate0 hfast i ch

example : ∃ a', exNew.playWav flashGeo (some ⟨exHeldWav 2, 0, false⟩) (List.replicate 36 7) = .ok (true, a') ∧
    ∃ fxs a'', a'.ticks Fp.ieee flashGeo true (1 + 1) (List.replicate 2 fun _ => true) = .ok (fxs, a'') ∧ fxs.length = 2 ∧
      ∀ k, 1 ≤ k → k < 2 → (fxs.map (·.transmitted))[k]? = some (outputs 2 fun _ => List.replicate 128 0) :=
  C77_wav_silence_refuted Fp.ieee (g := flashGeo) (by decide +kernel) (by decide +kernel) (by decide +kernel) exNew (exHeldWav_bytes (n := 2) (by decide +kernel)) (by decide +kernel) false (List.replicate 36 7) (by decide +kernel) (by decide +kernel) (by decide +kernel) (off := 36) ⟨Or.inl ⟨rfl, by decide +kernel⟩, by decide +kernel, by decide +kernel⟩
    (nch := 2) (D := 1024) (by decide +kernel) (by decide +kernel) (by decide +kernel) (by decide +kernel) (by decide +kernel) (by decide +kernel) exNew_settings (by decide +kernel) (by intro h; cases h)
    (by rw [show (128 : ℚ) * exNew.rd.rate = ((128 : Int) : ℚ) by norm_num [exNew], Int.floor_intCast]; decide) true (by decide +kernel) 2 (by
      intro j hj
      rw [show (startFrame exNew.rd : ℚ) + exNew.rd.rem + (j : ℚ) * exNew.rd.rate = ((j : Int) : ℚ) by simp [startFrame, exNew], Int.floor_intCast]
      exact_mod_cast (by omega : j < 128 * 2))

theorem flash_buffered {P : Int} : ∀ k : Nat, bufferedFrom 2 128 (fun k => P + 128 * (k : Int)) (k + 1) = P / 128 + k
  | 0 => by simp [bufferedFrom]
  | k + 1 => by
    rw [bufferedFrom, flash_buffered k]
    push_cast
    omega

theorem flash_starved {m : List Nat} {H s : Int} {f : ℚ} (hf : 0 ≤ f) (hf1 : f < 1) (k ch : Nat) (hch : ch < 1) :
    starvedBlock m 2 128 H (1 : Nat) (s + f) 1 k ch =
      (List.range 128).map fun j : Nat => if k = 0 ∨ (H + s) % 128 + j < 128 then fileSample m (H + s + 128 * k + j).toNat else 0 := by
  obtain rfl : ch = 0 := by omega
  have hfl : ∀ i : Nat, ⌊(s : ℚ) + f + (i : ℚ) * 1⌋ = s + i := by
    intro i
    rw [mul_one, add_right_comm, Int.floor_eq_iff]
    push_cast
    exact ⟨by linarith, by linarith⟩
  have hfun : (fun k : Nat => H + ⌊(s : ℚ) + f + ((128 * k : Nat) : ℚ) * 1⌋ * ((1 : Nat) : Int)) = fun k : Nat => (H + s) + 128 * (k : Int) := by
    funext k; rw [hfl]; push_cast; ring
  unfold starvedBlock
  refine List.map_congr_left fun j hj => ?_
  rw [List.mem_range] at hj
  simp only
  rw [hfun, hfl]
  have e : H + (s + ((128 * k + j : Nat) : Int)) * ((1 : Nat) : Int) + ((0 : Nat) : Int) = H + s + 128 * k + j := by push_cast; ring
  rw [e]
  rcases k with _ | k
  · rw [if_pos (Or.inl rfl), if_pos]
    simp only [bufferedFrom]
    push_cast
    omega
  · rw [flash_buffered]
    generalize H + s = P
    by_cases hlt : P % 128 + j < 128
    · rw [if_pos (Or.inr hlt), if_pos (by push_cast; omega)]
    · rw [if_neg (by push_cast; omega), if_neg (by omega)]

/-- **C77** is violated for mono WAV files with the buffers of the serial flash reader, at the normal speed: from the second update on, the last samples of
each update are replaced by silence, as many as the first sample played lies after the start of a block (22 of 128 with a plain header of 44 bytes). -/
theorem C77_flash_wav_refuted (fp : Fp) (a : FileReader) {m : List Nat}
    (hb : IsBytes m) (hm : m.length < 2 ^ 31) (past : Bool) (junk : List Nat) (hj : junk.length = 36) (hg : GoodHeader m)
    (hdep : leVal (slice m 34 2) = 16) {off : Nat} (hda : DataAt m off) {D : Nat} (hn : leVal (slice m 22 2) = 1)
    (hD : leVal (slice m (off + 4) 4) = D) (hdata : off + 8 + D ≤ m.length) (hroom : off + 8 < m.length) {p : Nat} {R : Int}
    (hset : GridSettings a.rd p R) (hR : R + 1 ≤ 2 ^ 30)
    (hstart : a.rd.playStart = .arbitrary → 0 ≤ a.rd.playbackStart ∧ a.rd.playbackStart ≤ (D / 2 : Nat)) (hrate : a.rd.rate = 1)
    (nullOk : Bool) {fuel : Nat} (hf : 2 ≤ fuel + 1) (n : Nat) (hlong : startFrame a.rd + 128 * n ≤ (D / 2 : Nat)) :
    ∃ a', a.playWav flashGeo (some ⟨m, 0, past⟩) junk = .ok (true, a') ∧
      ∃ fxs a'', a'.ticks fp flashGeo nullOk (fuel + 1) (List.replicate n fun _ => true) = .ok (fxs, a'') ∧
        fxs.map (·.transmitted) = (List.range n).map fun k : Nat => outputs 1 fun _ => (List.range 128).map fun j : Nat =>
          if k = 0 ∨ (((off + 8) / 2 : Nat) + startFrame a.rd) % 128 + j < 128 then fileSample m (((off + 8) / 2 : Nat) + startFrame a.rd + 128 * k + j).toNat else 0 := by
  have hfr := hset.forward.frac
  rw [abs_of_nonneg hset.rem0] at hfr
  have hl : ∀ j : Nat, j < 128 * n → ⌊(startFrame a.rd : ℚ) + a.rd.rem + (j : ℚ) * a.rd.rate⌋ < ((D / 2 / 1 : Nat) : Int) := by
    intro j hj
    rw [hrate, mul_one, add_right_comm, Int.floor_lt]
    have h1 : startFrame a.rd + j + 1 ≤ (D / 2 : Nat) := by omega
    have h2 : ((startFrame a.rd : ℚ) + j + 1) ≤ (((D / 2 : Nat) : Int) : ℚ) := by exact_mod_cast h1
    have h3 : (((D / 2 : Nat) : Int) : ℚ) = ((D / 2 / 1 : Nat) : Int) := by rw [Nat.div_one]
    rw [← h3]
    linarith
  obtain ⟨a', k1, fxs, a'', k2, k3⟩ := C77_wav_law fp (g := flashGeo) (by decide) (by decide) (by decide) a hb hm past junk hj hg hdep hda (nch := 1) hn (by decide) (by decide) hD hdata hroom hset (by simpa using hR) (by simpa using hstart) nullOk hf n hl
  refine ⟨a', by simpa using k1, fxs, a'', k2, ?_⟩
  rw [k3, hrate]
  refine List.map_congr_left fun k _ => ?_
  have : ∀ ch : Nat, ch < 1 → starvedBlock m flashGeo.N flashGeo.B ((off + 8) / 2 : Nat) (1 : Nat) (startFrame a.rd + a.rd.rem) 1 k ch = _ :=
    fun ch hch => flash_starved (m := m) hset.rem0 hfr k ch hch
  unfold outputs
  simp only [if_true, List.range_one, List.map_cons, List.map_nil]
  rw [this 0 (by decide)]

example : ∃ a', exNew.playWav flashGeo (some ⟨exHeldWav 1, 0, false⟩) (List.replicate 36 7) = .ok (true, a') ∧
    ∃ fxs a'', a'.ticks Fp.ieee flashGeo true (1 + 1) (List.replicate 4 fun _ => true) = .ok (fxs, a'') ∧
      fxs.map (·.transmitted) = (List.range 4).map fun k : Nat => outputs 1 fun _ => (List.range 128).map fun j : Nat =>
        if k = 0 ∨ (((36 + 8) / 2 : Nat) + startFrame exNew.rd) % 128 + j < 128 then fileSample (exHeldWav 1) (((36 + 8) / 2 : Nat) + startFrame exNew.rd + 128 * k + j).toNat else 0 :=
  C77_flash_wav_refuted Fp.ieee exNew (exHeldWav_bytes (n := 1) (by decide)) (by decide +kernel) false (List.replicate 36 7) (by decide) (by decide +kernel) (by decide +kernel)
    (off := 36) ⟨Or.inl ⟨rfl, by decide +kernel⟩, by decide +kernel, by decide +kernel⟩ (D := 1024) (by decide +kernel) (by decide +kernel) (by decide +kernel) (by decide +kernel)
    exNew_settings (by decide) (by intro h; cases h) rfl true (by decide) 4 (by decide)

/-- The same for raw files: nothing is lost from the first frame, but starting elsewhere, the same share of each update is lost. -/
theorem C77_flash_raw_refuted (fp : Fp) (a : FileReader) {m : List Nat}
    (hb : IsBytes m) (h0 : 0 < m.length) (hm : m.length < 2 ^ 31) (past : Bool) {p : Nat} {R : Int}
    (hset : GridSettings a.rd p R) (hhead : a.rd.header = 0) (hR : R + 1 ≤ 2 ^ 30)
    (hstart : a.rd.playStart = .arbitrary → 0 ≤ a.rd.playbackStart ∧ a.rd.playbackStart ≤ (m.length / 2 : Nat)) (hrate : a.rd.rate = 1)
    (nullOk : Bool) {fuel : Nat} (hf : 2 ≤ fuel + 1) (n : Nat) (hlong : startFrame a.rd + 128 * n ≤ (m.length / 2 : Nat)) :
    ∃ a', a.playRaw flashGeo (some ⟨m, 0, past⟩) 1 = .ok (true, a') ∧
      ∃ fxs a'', a'.ticks fp flashGeo nullOk (fuel + 1) (List.replicate n fun _ => true) = .ok (fxs, a'') ∧
        fxs.map (·.transmitted) = (List.range n).map fun k : Nat => outputs 1 fun _ => (List.range 128).map fun j : Nat =>
          if k = 0 ∨ (startFrame a.rd) % 128 + j < 128 then fileSample m (startFrame a.rd + 128 * k + j).toNat else 0 := by
  have hfr := hset.forward.frac
  rw [abs_of_nonneg hset.rem0] at hfr
  have hl : ∀ j : Nat, j < 128 * n → ⌊(startFrame a.rd : ℚ) + a.rd.rem + (j : ℚ) * a.rd.rate⌋ < ((m.length / 2 / 1 : Nat) : Int) := by
    intro j hj
    rw [hrate, mul_one, add_right_comm, Int.floor_lt]
    have h1 : startFrame a.rd + j + 1 ≤ (m.length / 2 : Nat) := by omega
    have h2 : ((startFrame a.rd : ℚ) + j + 1) ≤ (((m.length / 2 : Nat) : Int) : ℚ) := by exact_mod_cast h1
    have h3 : (((m.length / 2 : Nat) : Int) : ℚ) = ((m.length / 2 / 1 : Nat) : Int) := by rw [Nat.div_one]
    rw [← h3]
    linarith
  obtain ⟨a', k1, fxs, a'', k2, k3⟩ := C77_raw_law fp (g := flashGeo) (by decide) (by decide) (by decide) a hb h0 hm past (nch := 1) (by decide) (by decide) hset hhead (by simpa using hR) (by simpa using hstart) nullOk hf n hl
  refine ⟨a', by simpa using k1, fxs, a'', k2, ?_⟩
  rw [k3, hrate]
  refine List.map_congr_left fun k _ => ?_
  have : ∀ ch : Nat, ch < 1 → starvedBlock m flashGeo.N flashGeo.B 0 (1 : Nat) (startFrame a.rd + a.rd.rem) 1 k ch = _ :=
    fun ch hch => flash_starved (m := m) hset.rem0 hfr k ch hch
  unfold outputs
  simp only [if_true, List.range_one, List.map_cons, List.map_nil]
  rw [this 0 (by decide)]
  simp only [zero_add]

/-- A player set to begin with the hundredth frame. -/
def exLate : FileReader := { rd := { playStart := .arbitrary, playbackStart := 100 } }

theorem exLate_settings : GridSettings exLate.rd 0 1 :=
  ⟨⟨⟨rfl, rfl⟩, rfl, by norm_num [exLate], by norm_num [exLate], exNew_settings.forward.flt, by norm_num [exLate]⟩,
    GridRate.one (by norm_num), ⟨0, by norm_num [exLate]⟩, le_refl _⟩

example : ∃ a', exLate.playRaw flashGeo (some ⟨exHeld, 0, false⟩) 1 = .ok (true, a') ∧
    ∃ fxs a'', a'.ticks Fp.ieee flashGeo true (1 + 1) (List.replicate 3 fun _ => true) = .ok (fxs, a'') ∧
      fxs.map (·.transmitted) = (List.range 3).map fun k : Nat => outputs 1 fun _ => (List.range 128).map fun j : Nat =>
        if k = 0 ∨ (startFrame exLate.rd) % 128 + j < 128 then fileSample exHeld (startFrame exLate.rd + 128 * k + j).toNat else 0 :=
  C77_flash_raw_refuted Fp.ieee exLate exHeld_bytes (by decide +kernel) (by decide +kernel) false exLate_settings rfl (by decide) (fun _ => ⟨by decide, by decide +kernel⟩) rfl
    true (by decide) 3 (by decide +kernel)

/-- One update's worth of what a file of samples 257 sounds like from serial flash: the second update of a mono WAV file ends with 22 zeros. -/
example : starvedBlock (exHeldWav 1) 2 128 22 1 0 1 1 0 = List.replicate 106 257 ++ List.replicate 22 0 := by decide +kernel

example : starvedBlock exHeld 2 128 0 2 0 1 0 0 = List.replicate 128 257 ∧ starvedBlock exHeld 2 128 0 2 0 1 1 0 = List.replicate 128 0 := by decide +kernel

/-! ## Enough buffers -/

/-- At slow rates, what two updates and a frame can use fits into all buffers but one. -/
theorem Opened.slow {m : List Nat} {g : Geo} (fp : Fp) (hB : g.B < 16384) (hNB : g.N * g.B ≤ 2 ^ 30) (hb : IsBytes m) (hm : m.length < 2 ^ 31)
    {H F nch : Int} {ρ : ℚ} {p : Nat} {R : Int} {x : ℚ} {a : FileReader} (h : Opened m g H F nch ρ p R x a)
    (hslow : nch * (⌈128 * ρ⌉ + ⌈127 * ρ⌉ + 1) ≤ ((g.N : Int) - 1) * g.B + 1) (nullOk : Bool) {fuel : Nat} (hf : g.N ≤ fuel + 1) :
    LikeInMemory fp g nullOk (fuel + 1) a m := by
  have hB0 : (0 : Int) < g.B := by exact_mod_cast g.B_pos
  have hn : 0 ≤ nch := by rw [← h.chans]; exact le_of_lt h.fwd.plain.nch
  have hρ : 0 ≤ ρ := by rw [← h.rate]; exact h.fwd.rate0
  refine h.like fp hB hNB hb hm (fun k x => H + ⌊x⌋ * nch < (k + 1) * g.B + nch * ⌈128 * ρ⌉) (fun k x hx hW j hj => ?_) (fun k x hx hW => ?_) ?_ nullOk hf
  · have h1 : ⌊x + (j : ℚ) * ρ⌋ ≤ ⌊x⌋ + ⌈127 * ρ⌉ := by
      rw [← Int.lt_add_one_iff, Int.floor_lt]
      have i1 := Int.lt_floor_add_one x
      have i2 := Int.le_ceil (127 * ρ)
      have i3 : (j : ℚ) * ρ ≤ 127 * ρ := mul_le_mul_of_nonneg_right (by exact_mod_cast (by omega : j ≤ 127)) hρ
      push_cast
      linarith
    have h2 := mul_le_mul_of_nonneg_right h1 hn
    have h3 : (⌊x⌋ + ⌈127 * ρ⌉) * nch = ⌊x⌋ * nch + nch * ⌈127 * ρ⌉ := by ring
    have h4 : nch * (⌈128 * ρ⌉ + ⌈127 * ρ⌉ + 1) = nch * ⌈128 * ρ⌉ + nch * ⌈127 * ρ⌉ + nch := by ring
    have h5 : (k + 1) * (g.B : Int) + (((g.N : Int) - 1) * g.B + 1) = (k + g.N) * g.B + 1 := by ring
    exact Int.ediv_lt_of_lt_mul hB0 (by linarith)
  · have h1 : ⌊x + 128 * ρ⌋ ≤ ⌊x⌋ + ⌈128 * ρ⌉ := by
      rw [← Int.lt_add_one_iff, Int.floor_lt]
      have i1 := Int.lt_floor_add_one x
      have i2 := Int.le_ceil (128 * ρ)
      push_cast
      linarith
    have h2 := mul_le_mul_of_nonneg_right h1 hn
    have h3 : (⌊x⌋ + ⌈128 * ρ⌉) * nch = ⌊x⌋ * nch + nch * ⌈128 * ρ⌉ := by ring
    have h4 := Int.lt_ediv_add_one_mul_self (H + ⌊x⌋ * nch) hB0
    linarith
  · have h1 := Int.lt_ediv_add_one_mul_self (H + ⌊x⌋ * nch) hB0
    have h2 : 0 ≤ nch * ⌈128 * ρ⌉ := mul_nonneg hn (Int.ceil_nonneg (by linarith))
    linarith

/-- At a whole rate, updates that begin at a block boundary, or at a fraction of a block that they use up, need two buffers. -/
theorem Opened.aligned {m : List Nat} {g : Geo} (fp : Fp) (hB : g.B < 16384) (hNB : g.N * g.B ≤ 2 ^ 30) (hb : IsBytes m) (hm : m.length < 2 ^ 31)
    {H F nch κ : Int} {p : Nat} {R : Int} {x : ℚ} {a : FileReader} (h : Opened m g H F nch κ p R x a) (hκ : 1 ≤ κ) (hN : 2 ≤ g.N)
    (hdiv : 128 * κ * nch ∣ g.B) (hpos : 128 * κ * nch ∣ H + ⌊x⌋ * nch) (nullOk : Bool) {fuel : Nat} (hf : g.N ≤ fuel + 1) :
    LikeInMemory fp g nullOk (fuel + 1) a m := by
  have hB0 : (0 : Int) < g.B := by exact_mod_cast g.B_pos
  have hn : 0 < nch := by rw [← h.chans]; exact h.fwd.plain.nch
  have hN' : (2 : Int) ≤ g.N := by exact_mod_cast hN
  obtain ⟨D, hD⟩ : ∃ D, D = 128 * κ * nch := ⟨_, rfl⟩
  have hκn : 0 < κ * nch := mul_pos (by omega) hn
  have hD0 : 0 < D := by rw [hD, mul_assoc]; omega
  rw [← hD] at hdiv hpos
  obtain ⟨b, hb'⟩ := hdiv
  have hfl : ∀ (x : ℚ) (j : Nat), ⌊x + (j : ℚ) * (κ : ℚ)⌋ = ⌊x⌋ + j * κ := by
    intro x j
    have : x + (j : ℚ) * (κ : ℚ) = x + ((j * κ : Int) : ℚ) := by push_cast; ring
    rw [this, Int.floor_add_intCast]
  have hstep : ∀ q : Int, (D * q) / g.B ≤ (D * q + D - 1) / g.B ∧ (D * q + D - 1) / g.B ≤ (D * q) / g.B := by
    intro q
    refine ⟨Int.ediv_le_ediv hB0 (by omega), ?_⟩
    rw [hb', Int.mul_ediv_mul_of_pos _ _ hD0, ← Int.ediv_ediv_of_nonneg (le_of_lt hD0)]
    have : (D * q + D - 1) / D = q := by
      rw [add_sub_assoc, Int.mul_add_ediv_left _ _ (ne_of_gt hD0), Int.ediv_eq_zero_of_lt (by omega) (by omega), add_zero]
    rw [this]
  refine h.like fp hB hNB hb hm (fun k x => D ∣ H + ⌊x⌋ * nch ∧ (H + ⌊x⌋ * nch) / g.B ≤ k + 1) (fun k x hx hW j hj => ?_) (fun k x hx hW => ?_)
    ⟨hpos, by omega⟩ nullOk hf
  · obtain ⟨⟨q, hq⟩, hk⟩ := hW
    rw [hfl]
    have h1 : H + (⌊x⌋ + j * κ) * nch + nch - 1 ≤ D * q + D - 1 := by
      rw [← hq, hD]
      have i1 : (j : Int) * (κ * nch) ≤ 127 * (κ * nch) := mul_le_mul_of_nonneg_right (by omega) (le_of_lt hκn)
      have i2 : nch ≤ κ * nch := by nlinarith
      linarith
    have h2 := le_trans (Int.ediv_le_ediv hB0 h1) (hstep q).2
    rw [hq] at hk
    omega
  · obtain ⟨⟨q, hq⟩, hk⟩ := hW
    have e1 := hfl x 128
    rw [show ((128 : Nat) : ℚ) = 128 by norm_num] at e1
    have e2 : H + (⌊x⌋ + ((128 : Nat) : Int) * κ) * nch = D * (q + 1) := by
      have : H + (⌊x⌋ + ((128 : Nat) : Int) * κ) * nch = H + ⌊x⌋ * nch + 128 * κ * nch := by push_cast; ring
      rw [this, hq, ← hD]; ring
    rw [e1, e2, hq]
    refine ⟨dvd_mul_right _ _, ?_⟩
    have h1 : D ≤ g.B := Int.le_of_dvd hB0 ⟨b, hb'⟩
    rw [← Int.add_mul_ediv_right _ 1 (ne_of_gt hB0)]
    refine Int.ediv_le_ediv hB0 ?_
    rw [mul_add]; omega

/-- **C77**, for rates so slow that two updates and one frame fit into all the buffers but one: what is transmitted is exactly what it would be with the
file in memory.  With the SD reader's seven buffers of 2048 samples, this is up to rate 24 in stereo and 48 in mono; with those of the serial flash reader,
up to rate one half in mono. -/
theorem C77_raw_slow_partial (fp : Fp) {g : Geo} (hN : 1 ≤ g.N) (hB : g.B < 16384) (hNB : g.N * g.B ≤ 2 ^ 30) (a : FileReader) {m : List Nat}
    (hb : IsBytes m) (h0 : 0 < m.length) (hm : m.length < 2 ^ 31) (past : Bool) {nch : Nat} (hc : 1 ≤ nch) (hc' : nch ≤ 32767) {p : Nat} {R : Int}
    (hset : GridSettings a.rd p R) (hhead : a.rd.header = 0) (hR : nch * (R + 1) ≤ 2 ^ 30)
    (hstart : a.rd.playStart = .arbitrary → 0 ≤ a.rd.playbackStart ∧ a.rd.playbackStart ≤ (m.length / 2 / nch : Nat))
    (hslow : nch * (⌈128 * a.rd.rate⌉ + ⌈127 * a.rd.rate⌉ + 1) ≤ ((g.N : Int) - 1) * g.B + 1) (nullOk : Bool) {fuel : Nat} (hf : g.N ≤ fuel + 1) :
    ∃ a', a.playRaw g (some ⟨m, 0, past⟩) nch = .ok (true, a') ∧
      LikeInMemory fp g nullOk (fuel + 1) a' m := by
  obtain ⟨a', k1, k2⟩ := raw_opened hN hNB a h0 hm past hc hc' hset hhead hR hstart
  exact ⟨a', k1, k2.slow fp hB hNB hb hm hslow nullOk hf⟩

example : ∃ a', exNew.playRaw sdGeo (some ⟨exHeld, 0, false⟩) (2 : Nat) = .ok (true, a') ∧ LikeInMemory Fp.ieee sdGeo true (6 + 1) a' exHeld :=
  C77_raw_slow_partial Fp.ieee (g := sdGeo) (by decide +kernel) (by decide +kernel) (by decide +kernel) exNew exHeld_bytes (by decide +kernel) (by decide +kernel) false (nch := 2) (by decide +kernel) (by decide +kernel) exNew_settings rfl (by decide +kernel) (by intro h; cases h)
    (by
      rw [show (128 : ℚ) * exNew.rd.rate = ((128 : Int) : ℚ) by norm_num [exNew], show (127 : ℚ) * exNew.rd.rate = ((127 : Int) : ℚ) by norm_num [exNew],
        Int.ceil_intCast, Int.ceil_intCast]
      decide) true (by decide +kernel)

/-- The same for WAV files. -/
theorem C77_wav_slow_partial (fp : Fp) {g : Geo} (hN : 1 ≤ g.N) (hB : g.B < 16384) (hNB : g.N * g.B ≤ 2 ^ 30) (a : FileReader) {m : List Nat}
    (hb : IsBytes m) (hm : m.length < 2 ^ 31) (past : Bool) (junk : List Nat) (hj : junk.length = 36) (hg : GoodHeader m)
    (hdep : leVal (slice m 34 2) = 16) {off : Nat} (hda : DataAt m off) {nch D : Nat} (hn : leVal (slice m 22 2) = nch) (hc : 1 ≤ nch) (hc' : nch ≤ 32767)
    (hD : leVal (slice m (off + 4) 4) = D) (hdata : off + 8 + D ≤ m.length) (hroom : off + 8 < m.length) {p : Nat} {R : Int}
    (hset : GridSettings a.rd p R) (hR : nch * (R + 1) ≤ 2 ^ 30)
    (hstart : a.rd.playStart = .arbitrary → 0 ≤ a.rd.playbackStart ∧ a.rd.playbackStart ≤ (D / 2 / nch : Nat))
    (hslow : nch * (⌈128 * a.rd.rate⌉ + ⌈127 * a.rd.rate⌉ + 1) ≤ ((g.N : Int) - 1) * g.B + 1) (nullOk : Bool) {fuel : Nat} (hf : g.N ≤ fuel + 1) :
    ∃ a', a.playWav g (some ⟨m, 0, past⟩) junk = .ok (true, a') ∧
      LikeInMemory fp g nullOk (fuel + 1) a' m := by
  obtain ⟨a', k1, k2⟩ := wav_opened hN hNB a hb hm past junk hj hg hdep hda hn hc hc' hD hdata hroom hset hR hstart
  exact ⟨a', k1, k2.slow fp hB hNB hb hm hslow nullOk hf⟩

example : ∃ a', exNew.playWav sdGeo (some ⟨exHeldWav 2, 0, false⟩) (List.replicate 36 7) = .ok (true, a') ∧ LikeInMemory Fp.ieee sdGeo true (6 + 1) a' (exHeldWav 2) :=
  C77_wav_slow_partial Fp.ieee (g := sdGeo) (by decide +kernel) (by decide +kernel) (by decide +kernel) exNew (exHeldWav_bytes (n := 2) (by decide +kernel)) (by decide +kernel) false (List.replicate 36 7) (by decide +kernel) (by decide +kernel) (by decide +kernel) (off := 36) ⟨Or.inl ⟨rfl, by decide +kernel⟩, by decide +kernel, by decide +kernel⟩
    (nch := 2) (D := 1024) (by decide +kernel) (by decide +kernel) (by decide +kernel) (by decide +kernel) (by decide +kernel) (by decide +kernel) exNew_settings (by decide +kernel) (by intro h; cases h)
    (by
      rw [show (128 : ℚ) * exNew.rd.rate = ((128 : Int) : ℚ) by norm_num [exNew], show (127 : ℚ) * exNew.rd.rate = ((127 : Int) : ℚ) by norm_num [exNew],
        Int.ceil_intCast, Int.ceil_intCast]
      decide) true (by decide +kernel)

/-- **C77**, at whole rates, if a block is a multiple of what an update uses, and so is the position of the first sample played: two buffers suffice.
With the buffers of the serial flash reader, this is the case for raw mono files played from the start at the normal speed. -/
theorem C77_raw_aligned_partial (fp : Fp) {g : Geo} (hN : 1 ≤ g.N) (hB : g.B < 16384) (hNB : g.N * g.B ≤ 2 ^ 30) (a : FileReader) {m : List Nat}
    (hb : IsBytes m) (h0 : 0 < m.length) (hm : m.length < 2 ^ 31) (past : Bool) {nch : Nat} (hc : 1 ≤ nch) (hc' : nch ≤ 32767) {p : Nat} {R : Int}
    (hset : GridSettings a.rd p R) (hhead : a.rd.header = 0) (hR : nch * (R + 1) ≤ 2 ^ 30)
    (hstart : a.rd.playStart = .arbitrary → 0 ≤ a.rd.playbackStart ∧ a.rd.playbackStart ≤ (m.length / 2 / nch : Nat))
    {κ : Int} (hκ : 1 ≤ κ) (hrate : a.rd.rate = κ) (hN2 : 2 ≤ g.N) (hdiv : 128 * κ * nch ∣ (g.B : Int))
    (hpos : 128 * κ * nch ∣ (0 : Int) + startFrame a.rd * nch) (nullOk : Bool) {fuel : Nat} (hf : g.N ≤ fuel + 1) :
    ∃ a', a.playRaw g (some ⟨m, 0, past⟩) nch = .ok (true, a') ∧
      LikeInMemory fp g nullOk (fuel + 1) a' m := by
  obtain ⟨a', k1, k2⟩ := raw_opened hN hNB a h0 hm past hc hc' hset hhead hR hstart
  have hfr := hset.forward.frac
  rw [abs_of_nonneg hset.rem0] at hfr
  rw [hrate] at k2
  refine ⟨a', k1, k2.aligned fp hB hNB hb hm hκ hN2 hdiv ?_ nullOk hf⟩
  rw [Int.floor_intCast_add, Int.floor_eq_zero_iff.2 ⟨hset.rem0, hfr⟩, add_zero]
  exact hpos

example : ∃ a', exNew.playRaw flashGeo (some ⟨exHeld, 0, false⟩) (1 : Nat) = .ok (true, a') ∧ LikeInMemory Fp.ieee flashGeo true (1 + 1) a' exHeld :=
  C77_raw_aligned_partial Fp.ieee (g := flashGeo) (by decide +kernel) (by decide +kernel) (by decide +kernel) exNew exHeld_bytes (by decide +kernel) (by decide +kernel) false (nch := 1) (by decide +kernel) (by decide +kernel) exNew_settings rfl (by decide +kernel) (by intro h; cases h) (κ := 1) (by decide +kernel)
    (by norm_num [exNew]) (by decide +kernel) (by decide +kernel) (by decide +kernel) true (by decide +kernel)

/-- The same for WAV files; the header then has a multiple of 256 bytes, for instance. -/
theorem C77_wav_aligned_partial (fp : Fp) {g : Geo} (hN : 1 ≤ g.N) (hB : g.B < 16384) (hNB : g.N * g.B ≤ 2 ^ 30) (a : FileReader) {m : List Nat}
    (hb : IsBytes m) (hm : m.length < 2 ^ 31) (past : Bool) (junk : List Nat) (hj : junk.length = 36) (hg : GoodHeader m)
    (hdep : leVal (slice m 34 2) = 16) {off : Nat} (hda : DataAt m off) {nch D : Nat} (hn : leVal (slice m 22 2) = nch) (hc : 1 ≤ nch) (hc' : nch ≤ 32767)
    (hD : leVal (slice m (off + 4) 4) = D) (hdata : off + 8 + D ≤ m.length) (hroom : off + 8 < m.length) {p : Nat} {R : Int}
    (hset : GridSettings a.rd p R) (hR : nch * (R + 1) ≤ 2 ^ 30)
    (hstart : a.rd.playStart = .arbitrary → 0 ≤ a.rd.playbackStart ∧ a.rd.playbackStart ≤ (D / 2 / nch : Nat))
    {κ : Int} (hκ : 1 ≤ κ) (hrate : a.rd.rate = κ) (hN2 : 2 ≤ g.N) (hdiv : 128 * κ * nch ∣ (g.B : Int))
    (hpos : 128 * κ * nch ∣ ((off + 8) / 2 : Nat) + startFrame a.rd * nch) (nullOk : Bool) {fuel : Nat} (hf : g.N ≤ fuel + 1) :
    ∃ a', a.playWav g (some ⟨m, 0, past⟩) junk = .ok (true, a') ∧
      LikeInMemory fp g nullOk (fuel + 1) a' m := by
  obtain ⟨a', k1, k2⟩ := wav_opened hN hNB a hb hm past junk hj hg hdep hda hn hc hc' hD hdata hroom hset hR hstart
  have hfr := hset.forward.frac
  rw [abs_of_nonneg hset.rem0] at hfr
  rw [hrate] at k2
  refine ⟨a', k1, k2.aligned fp hB hNB hb hm hκ hN2 hdiv ?_ nullOk hf⟩
  rw [Int.floor_intCast_add, Int.floor_eq_zero_iff.2 ⟨hset.rem0, hfr⟩, add_zero]
  exact hpos

/-- A mono WAV file with a header of 256 bytes, so that the data begin with a block. -/
def exEvenWav : List Nat :=
  [82, 73, 70, 70, 36, 4, 0, 0, 87, 65, 86, 69, 102, 109, 116, 32, 16, 0, 0, 0, 1, 0, 1, 0, 68, 172, 0, 0, 136, 88, 1, 0, 2, 0, 16, 0, 76, 73, 83, 84, 204, 0, 0, 0] ++
    List.replicate 204 7 ++ [100, 97, 116, 97, 0, 4, 0, 0] ++ exHeld

theorem exEvenWav_bytes : IsBytes exEvenWav := by
  intro b hb
  rcases List.mem_append.1 hb with hb | hb
  · revert b; decide +kernel
  · exact exHeld_bytes b hb

example : ∃ a', exNew.playWav flashGeo (some ⟨exEvenWav, 0, false⟩) (List.replicate 36 7) = .ok (true, a') ∧ LikeInMemory Fp.ieee flashGeo true (1 + 1) a' exEvenWav :=
  C77_wav_aligned_partial Fp.ieee (g := flashGeo) (by decide) (by decide) (by decide) exNew exEvenWav_bytes (by decide +kernel) false (List.replicate 36 7) (by decide) (by decide +kernel)
    (by decide +kernel) (off := 248) ⟨Or.inr ⟨by decide +kernel, by decide +kernel⟩, by decide +kernel, by decide +kernel⟩ (nch := 1) (D := 1024) (by decide +kernel) (by decide) (by decide)
    (by decide +kernel) (by decide +kernel) (by decide +kernel) exNew_settings (by decide) (by intro h; cases h) (κ := 1) (by decide) (by norm_num [exNew]) (by decide) (by decide) (by decide) true (by decide)

end TVP
