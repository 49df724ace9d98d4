import Verif.Lemmas.TuneAlike
import Verif.Props.Tune

/-!
# Property C92 for repeated loops
-/

namespace TVP
open Spec

/-- A player just opened, round and round. -/
theorem loop_amble_live {fp : Fp} (hfp : Representable fp) {g : Geo} (hNB : g.N * g.B ≤ 2 ^ 30) {a a' : FileReader} {m : List Nat} (hm : m.length < 2 ^ 31) {start nch : Nat}
    (heven : start % 2 = 0) (hc : 1 ≤ nch) {R mm : Int} (hset : RepeatSettings a.rd R) (hrem0 : 0 ≤ a.rd.rem)
    (hloop : GoodLoop g m (start / 2 : Nat) nch a.rd.loopStart a.rd.loopFinish (firstFrame a.rd))
    (hmm : 2 * mm + 5 ≤ g.N) (hadv : 128 * (nch * (R + 1)) ≤ mm * g.B) (hop : Opens2 a.rd a') (k2 : a'.rd.nch = nch)
    (k3 : a'.rd.header = (start / 2 : Nat)) (k4 : a'.rd.loopType = .repeat) (k5 : a'.rd.loopStart = a.rd.loopStart) (k6 : a'.rd.loopFinish = a.rd.loopFinish)
    (k7 : a'.rd.pos1 = (start / 2 : Nat) + firstFrame a.rd * nch) (k8 : a'.rd.rate = a.rd.rate) (k9 : a'.rd.rem = a.rd.rem) :
    let x : ℚ := (firstFrame a.rd : ℚ) + a.rd.rem
    LoopAmbling fp a.rd.loopStart a.rd.loopFinish R x a.rd.rate 0 a'.rd ∧
      Turns fp (samplesOf m) (start / 2) nch (driftLoopPath fp a.rd.loopStart a.rd.loopFinish x a.rd.rate) (LoopAmbling fp a.rd.loopStart a.rd.loopFinish R x a.rd.rate) ∧
      (0 ≤ a.rd.loopStart ∧ a.rd.loopStart < a.rd.loopFinish ∧ IsFloat 53 (-1074) (Int.fract x) ∧ 0 ≤ ⌊x⌋ ∧ ⌊x⌋ < a.rd.loopFinish) ∧
      ∀ t i, driftLoopPath fp a.rd.loopStart a.rd.loopFinish x a.rd.rate t = some i → start + 2 * ((i + 1) * nch) ≤ m.length := by
  intro x
  have hn0 : (0 : Int) < nch := by exact_mod_cast hc
  have hR0 : 0 ≤ R := by
    have : (0 : ℚ) ≤ R := le_trans hset.rate0 hset.rateR
    exact_mod_cast this
  have hrem1 : a.rd.rem < 1 := lt_of_abs_lt hset.frac
  obtain ⟨hA0, hAZ, hfile, hq0, hq1, -⟩ := hloop
  have hB0 : (0 : Int) < g.B := by exact_mod_cast g.B_pos
  have hNB' : (g.N : Int) * g.B ≤ 2 ^ 30 := by exact_mod_cast hNB
  have h1 : mm * g.B ≤ g.N * g.B := mul_le_mul_of_nonneg_right (by omega) (le_of_lt hB0)
  have h2 : R + 1 ≤ nch * (R + 1) := le_mul_of_one_le_left (by omega) (by omega)
  have hxx : ∀ E : Int, ((start / 2 : Nat) : Int) + nch * (E + R + 1) = (start / 2 : Nat) + E * nch + nch * (R + 1) := fun E => by ring
  have hx1 : ∀ E : Int, ((start / 2 : Nat) : Int) + nch * (E + 1) = (start / 2 : Nat) + E * nch + nch := fun E => by ring
  have hsl : ((samplesOf m).length : Int) = (m.length : Int) / 2 := by unfold samplesOf; simp
  have hfl : ⌊x⌋ = firstFrame a.rd := by
    rw [Int.floor_eq_iff]; constructor <;> linarith
  have hfr : Int.fract x = a.rd.rem := by unfold Int.fract; rw [hfl]; ring
  have hx : IsFloat 53 (-1074) (Int.fract x) := by rw [hfr]; exact hset.flt
  generalize x = x at *
  generalize hq : firstFrame a.rd = q at *
  generalize hA : a.rd.loopStart = A at *
  generalize hE : a.rd.loopFinish = E at *
  refine ⟨⟨x, ⟨⟨⟨hop.plain hset.plain k2 hc, by rw [hfl, k7, k3, k2], by rw [k3]; exact Int.natCast_nonneg _, by rw [k5]; exact hA0,
      by rw [k5, k6]; exact hAZ, ?_⟩, k4, k5, k6⟩, k8, by rw [hfr, k9], hx, by omega, by omega⟩, ?_⟩,
    loop_amble_turns hfp hA0 hAZ hset.rate0 hset.rateR (by omega) hc (by rw [hxx]; omega) (by rw [hsl]; omega), ⟨hA0, hAZ, hx, by omega, by omega⟩, ?_⟩
  · rw [k3, k2, k6, hx1]
    have : (nch : Int) ≤ nch * (R + 1) := le_mul_of_one_le_right (by omega) (by omega)
    omega
  · rw [if_neg (by omega)]; rfl
  · intro t i hi
    obtain ⟨e1, e2⟩ := driftLoop_bound (fp := fp) hfp (x := x) hA0 hAZ hset.rate0 (by omega) (by omega) t
    have hi' := Option.some.inj hi
    have := mul_le_mul_of_nonneg_right (show (i : Int) + 1 ≤ E by omega) (le_of_lt hn0)
    have hcast : (((i + 1) * nch : Nat) : Int) = ((i : Int) + 1) * nch := by push_cast; rfl
    omega

/-- **C92** (repeated forwards).  With a loop from frame `A` to frame `E` the frames come as from a tape on which the loop is written out, at
the speed given, for ever, with at most `2^-52` frames of displacement for each instant passed: speeds below normal. -/
theorem C92_loop_partial (fp : Fp) (hfp : Representable fp) (g : Geo) (hB : g.B < 16384) (hNB : g.N * g.B ≤ 2 ^ 30) (a : FileReader) {m : List Nat}
    {off nch D : Nat} (hw : WavFile m off nch D) (past : Bool) (junk : List Nat) (hj : junk.length = 36) (hc' : nch ≤ 32767)
    {R mm : Int} (hset : RepeatSettings a.rd R) (hrem0 : 0 ≤ a.rd.rem) (hslow : a.rd.rate ≤ 1 - 1 / 2 ^ 53)
    (hloop : GoodLoop g m ((off + 8) / 2 : Nat) nch a.rd.loopStart a.rd.loopFinish (firstFrame a.rd))
    (hmm0 : 0 ≤ mm) (hmm : 2 * mm + 5 ≤ g.N) (hadv : 128 * (nch * (R + 1)) ≤ mm * g.B) (nullOk : Bool) {fuel : Nat} (hf : g.N ≤ fuel + 2) :
    ∃ a' path, a.playWav g (some ⟨m, 0, past⟩) junk = .ok (true, a') ∧
      InTuneLoop path (firstFrame a.rd + a.rd.rem) a.rd.rate (2 ^ 1 / 2 ^ 53) a.rd.loopStart a.rd.loopFinish ∧
      Sends fp g nullOk (fuel + 2) a' (fun i ch => dataSample m (off + 8) (i * nch + ch)) nch path := by
  have heven := hw.even
  obtain ⟨a', k0, k1, k2, k3, k4, k5, k6, k7, k8, k9, k10⟩ := C60_wav_partial fp hfp g hB hNB a hw.bytes hw.small past junk hj hw.good hw.depth hw.data hw.chans hw.some hc' hset hloop
    hmm0 hmm hadv nullOk hf
  have heven' : (off + 8) % 2 = 0 := by clear hw hloop; omega
  obtain ⟨l1, l2, l3, l4⟩ := loop_amble_live hfp (start := off + 8) hNB hw.small heven' hw.some hset hrem0 hloop hmm hadv (playWav_opens k0) k2 k3 k4 k5 k6 k7 k8 k9
  exact ⟨a', _, k0, driftLoopPath_inTune hfp l3.1 l3.2.1 hset.rate0 hslow l3.2.2.1 l3.2.2.2.1 l3.2.2.2.2, sends_of k10 l2 hw.some heven' k1 k2 k3 l1 l4⟩

/-- **C92** (repeated forwards, raw files). -/
theorem C92_loop_raw_partial (fp : Fp) (hfp : Representable fp) (g : Geo) (hB : g.B < 16384) (hNB : g.N * g.B ≤ 2 ^ 30) (a : FileReader) {m : List Nat}
    (hb : IsBytes m) (hm : m.length < 2 ^ 31) (past : Bool) {nch : Nat} (hc : 1 ≤ nch) (hc' : nch ≤ 32767) (hhead : a.rd.header = 0)
    {R mm : Int} (hset : RepeatSettings a.rd R) (hrem0 : 0 ≤ a.rd.rem) (hslow : a.rd.rate ≤ 1 - 1 / 2 ^ 53)
    (hloop : GoodLoop g m 0 nch a.rd.loopStart a.rd.loopFinish (firstFrame a.rd))
    (hmm0 : 0 ≤ mm) (hmm : 2 * mm + 5 ≤ g.N) (hadv : 128 * (nch * (R + 1)) ≤ mm * g.B) (nullOk : Bool) {fuel : Nat} (hf : g.N ≤ fuel + 2) :
    ∃ a' path, a.playRaw g (some ⟨m, 0, past⟩) nch = .ok (true, a') ∧
      InTuneLoop path (firstFrame a.rd + a.rd.rem) a.rd.rate (2 ^ 1 / 2 ^ 53) a.rd.loopStart a.rd.loopFinish ∧
      Sends fp g nullOk (fuel + 2) a' (fun i ch => dataSample m 0 (i * nch + ch)) nch path := by
  obtain ⟨a', k0, k1, k2, k3, k4, k5, k6, k7, k8, k9, k10⟩ := C60_raw_partial fp hfp g hB hNB a hb hm past hc hc' hset hhead hloop hmm0 hmm hadv nullOk hf
  obtain ⟨hop, -⟩ := playRaw_opens hm hc hc' k0
  obtain ⟨l1, l2, l3, l4⟩ := loop_amble_live hfp (start := 0) hNB hm rfl hc hset hrem0 hloop hmm hadv hop k2 k3 k4 k5 k6 (by rw [k7]; simp) k8 k9
  exact ⟨a', _, k0, driftLoopPath_inTune hfp l3.1 l3.2.1 hset.rate0 hslow l3.2.2.1 l3.2.2.2.1 l3.2.2.2.2, sends_of k10 l2 hc rfl k1 k2 k3 l1 l4⟩

/-- A player just opened, round and round backwards. -/
theorem loop_stroll_live {fp : Fp} (hfp : Representable fp) {g : Geo} (hNB : g.N * g.B ≤ 2 ^ 30) {a a' : FileReader} {m : List Nat} (hm : m.length < 2 ^ 31) {start nch : Nat}
    (heven : start % 2 = 0) (hc : 1 ≤ nch) {R mm : Int} (hset : RepeatBackSettings fp a.rd R) {ρ : ℚ} (hrate : a.rd.rate = -ρ)
    (hrem0 : a.rd.rem ≤ 0) {s : Nat}
    (hloop : GoodLoopBack g m (start / 2 : Nat) nch a.rd.loopStart a.rd.loopFinish (start / 2 + s * nch : Nat))
    (hmm : 2 * mm + 5 ≤ g.N) (hadv : 128 * (nch * (R + 1)) + nch * nch ≤ mm * g.B) (hop : Opens2 a.rd a') (k2 : a'.rd.nch = nch)
    (k3 : a'.rd.header = (start / 2 : Nat)) (k4 : a'.rd.loopType = .repeat) (k5 : a'.rd.loopStart = a.rd.loopStart) (k6 : a'.rd.loopFinish = a.rd.loopFinish)
    (k7 : a'.rd.pos1 = (start / 2 + s * nch : Nat)) (k8 : a'.rd.rate = a.rd.rate) (k9 : a'.rd.rem = a.rd.rem) :
    let x : ℚ := ((s : Nat) : ℚ) + a.rd.rem
    ∃ M, LoopStrolling fp a.rd.loopStart a.rd.loopFinish M nch R x ρ 0 a'.rd ∧
      Turns fp (samplesOf m) (start / 2) nch (driftLoopBackPath fp a.rd.loopStart (a.rd.loopFinish - nch) x ρ) (LoopStrolling fp a.rd.loopStart a.rd.loopFinish M nch R x ρ) ∧
      (0 ≤ a.rd.loopStart ∧ a.rd.loopStart ≤ a.rd.loopFinish - nch ∧ 0 ≤ ρ ∧ IsFloat 53 (-1074) (x - ⌈x⌉) ∧ a.rd.loopStart ≤ ⌈x⌉) ∧
      ∀ t i, driftLoopBackPath fp a.rd.loopStart (a.rd.loopFinish - nch) x ρ t = some i → start + 2 * ((i + 1) * nch) ≤ m.length := by
  intro x
  have hn0 : (0 : Int) < nch := by exact_mod_cast hc
  have hR0 := hset.R0
  have hρ : 0 < ρ := by
    have h0 : a.rd.rate < 0 := by
      by_contra hcc
      exact absurd (fp.f.nonneg (not_lt.1 hcc)) (not_le.2 hset.rateF)
    linarith
  have hρR : ρ ≤ R := by have := hset.rateR; linarith
  have hrem1 : -1 < a.rd.rem := neg_lt_of_abs_lt hset.frac
  have hwhole := hset.whole
  obtain ⟨hA0, hAZ, hfile, habove, hwithin, -, -, -⟩ := hloop
  have hB0 : (0 : Int) < g.B := by exact_mod_cast g.B_pos
  have hNB' : (g.N : Int) * g.B ≤ 2 ^ 30 := by exact_mod_cast hNB
  have h1 : mm * g.B ≤ g.N * g.B := mul_le_mul_of_nonneg_right (by omega) (le_of_lt hB0)
  have h2 : R + 1 ≤ nch * (R + 1) := le_mul_of_one_le_left (by omega) (by omega)
  have h3 : (nch : Int) ≤ nch * nch := le_mul_of_one_le_right (by omega) (by omega)
  have hxx : ∀ E : Int, ((start / 2 : Nat) : Int) + nch * (E + R + 2) = (start / 2 : Nat) + (E + 1) * nch + nch * (R + 1) := fun E => by ring
  have hx1 : ∀ E : Int, ((start / 2 : Nat) : Int) + nch * (E + 1) = (start / 2 : Nat) + E * nch + nch := fun E => by ring
  have hsl : ((samplesOf m).length : Int) = (m.length : Int) / 2 := by unfold samplesOf; simp
  have hcl : ⌈x⌉ = (s : Int) := by
    rw [Int.ceil_eq_iff]; constructor <;> push_cast <;> linarith
  have hfr : x - ⌈x⌉ = a.rd.rem := by rw [hcl]; push_cast; ring
  have hx : IsFloat 53 (-1074) (x - ⌈x⌉) := by rw [hfr]; exact hset.flt
  generalize x = x at *
  generalize hA : a.rd.loopStart = A at *
  generalize hE : a.rd.loopFinish = E at *
  -- the start lies above the start of the loop
  have hsA : A ≤ s := by
    by_contra hcc
    have : ((s : Int) + 1) * nch ≤ A * nch := mul_le_mul_of_nonneg_right (by omega) (le_of_lt hn0)
    rw [add_mul, one_mul] at this
    push_cast at habove
    omega
  -- the last frame it can be at
  obtain ⟨M, hM1, hM2, hM3⟩ : ∃ M : Int, (s : Int) ≤ M ∧ E ≤ M + 1 ∧ ((start / 2 : Nat) : Int) + (M + 1) * nch ≤ (m.length : Int) / 2 := by
    rcases le_total (s : Int) (E - 1) with h | h
    · refine ⟨E - 1, h, by omega, ?_⟩
      rw [sub_add_cancel]; omega
    · refine ⟨s, le_refl _, by omega, ?_⟩
      rw [add_mul, one_mul]
      push_cast at hwithin ⊢
      omega
  refine ⟨M, ⟨x, ⟨⟨⟨hop.plain hset.plain k2 hc, ?_, by rw [k3]; exact Int.natCast_nonneg _, by rw [k5]; exact hA0,
      by rw [k5, k6]; omega, ?_⟩, k4, k5, k6⟩, ?_, by rw [k8, hrate], by rw [hfr, k9], hx, by rw [hcl]; exact hM1, by rw [hcl]; omega⟩, ?_⟩,
    loop_stroll_turns hfp hA0 hc hAZ hM2 hρ hρR (by omega) (by rw [hxx]; omega) (by rw [hsl]; exact hM3),
    ⟨hA0, by omega, le_of_lt hρ, hx, by rw [hcl]; exact hsA⟩, ?_⟩
  · rw [hcl, k7, k3, k2]; push_cast; ring
  · rw [k3, k2, k6, hx1]
    omega
  · rw [hop.2.2.2.1, k5]
    by_cases hps : a.rd.playStart = .sample
    · exact Or.inr (hwhole hps)
    · exact Or.inl hps
  · rw [if_neg (by rw [hcl]; omega)]; rfl
  · intro t i hi
    obtain ⟨b1, b2⟩ := driftLoopBack_bound (fp := fp) hfp (A := A) (Z := E - nch) (by omega) (le_of_lt hρ) (x := x) (by rw [hcl]; exact hsA) t
    have hi' := Option.some.inj hi
    rw [hcl] at b2
    have := mul_le_mul_of_nonneg_right (show (i : Int) + 1 ≤ M + 1 by omega) (le_of_lt hn0)
    have hcast : (((i + 1) * nch : Nat) : Int) = ((i : Int) + 1) * nch := by push_cast; rfl
    omega

/-- **C92** (repeated backwards).  Likewise, the loop being the frames from `A` up to `nch` frames before `E`. -/
theorem C92_loop_back_partial (fp : Fp) (hfp : Representable fp) (g : Geo) (hB : g.B < 16384) (hNB : g.N * g.B ≤ 2 ^ 30) (a : FileReader) {m : List Nat}
    {off nch D : Nat} (hw : WavFile m off nch D) (past : Bool) (junk : List Nat) (hj : junk.length = 36) (hc' : nch ≤ 32767)
    {R mm : Int} (hset : RepeatBackSettings fp a.rd R) {ρ : ℚ} (hrate : a.rd.rate = -ρ) (hslow : ρ ≤ 1 - 1 / 2 ^ 53) (hrem0 : a.rd.rem ≤ 0) {s : Nat}
    (hP : StartsBackAt a.rd ((m.length : Int) / 2) ((off + 8) / 2 : Nat) a.rd.loopFinish nch ((off + 8) / 2 + s * nch : Nat))
    (hloop : GoodLoopBack g m ((off + 8) / 2 : Nat) nch a.rd.loopStart a.rd.loopFinish ((off + 8) / 2 + s * nch : Nat))
    (hmm0 : 0 ≤ mm) (hmm : 2 * mm + 5 ≤ g.N) (hadv : 128 * (nch * (R + 1)) + nch * nch ≤ mm * g.B) (nullOk : Bool) {fuel : Nat} (hf : g.N ≤ fuel + 2) :
    ∃ a' path, a.playWav g (some ⟨m, 0, past⟩) junk = .ok (true, a') ∧
      InTuneLoopBack path (s + a.rd.rem) ρ (2 ^ 1 / 2 ^ 53) a.rd.loopStart (a.rd.loopFinish - nch) ∧
      Sends fp g nullOk (fuel + 2) a' (fun i ch => dataSample m (off + 8) (i * nch + ch)) nch path := by
  have heven := hw.even
  obtain ⟨a', k0, k1, k4, k2, k3, k5, k6, k7, k8, k9, k10⟩ := C60_back_wav_partial fp hfp g hB hNB a hw.bytes hw.small past junk hj hw.good hw.depth hw.data hw.chans hw.some hc' hset hP hloop
    hmm0 hmm hadv nullOk hf
  have heven' : (off + 8) % 2 = 0 := by clear hw hloop hP; omega
  obtain ⟨M, l1, l2, l3, l4⟩ := loop_stroll_live hfp (start := off + 8) hNB hw.small heven' hw.some hset hrate hrem0 hloop hmm hadv (playWav_opens k0) k2 k3 k4 k5 k6 k7 k8 k9
  exact ⟨a', _, k0, driftLoopBackPath_inTune hfp l3.1 l3.2.1 l3.2.2.1 hslow l3.2.2.2.1 l3.2.2.2.2, sends_of k10 l2 hw.some heven' k1 k2 k3 l1 l4⟩

/-- **C92** (repeated backwards, raw files). -/
theorem C92_loop_back_raw_partial (fp : Fp) (hfp : Representable fp) (g : Geo) (hB : g.B < 16384) (hNB : g.N * g.B ≤ 2 ^ 30) (a : FileReader) {m : List Nat}
    (hb : IsBytes m) (hm : m.length < 2 ^ 31) (past : Bool) {nch : Nat} (hc : 1 ≤ nch) (hc' : nch ≤ 32767) (hhead : a.rd.header = 0)
    {R mm : Int} (hset : RepeatBackSettings fp a.rd R) {ρ : ℚ} (hrate : a.rd.rate = -ρ) (hslow : ρ ≤ 1 - 1 / 2 ^ 53) (hrem0 : a.rd.rem ≤ 0) {s : Nat}
    (hP : StartsBackAt a.rd ((m.length : Int) / 2) 0 a.rd.loopFinish nch (s * nch : Nat))
    (hloop : GoodLoopBack g m 0 nch a.rd.loopStart a.rd.loopFinish (s * nch : Nat))
    (hmm0 : 0 ≤ mm) (hmm : 2 * mm + 5 ≤ g.N) (hadv : 128 * (nch * (R + 1)) + nch * nch ≤ mm * g.B) (nullOk : Bool) {fuel : Nat} (hf : g.N ≤ fuel + 2) :
    ∃ a' path, a.playRaw g (some ⟨m, 0, past⟩) nch = .ok (true, a') ∧
      InTuneLoopBack path (s + a.rd.rem) ρ (2 ^ 1 / 2 ^ 53) a.rd.loopStart (a.rd.loopFinish - nch) ∧
      Sends fp g nullOk (fuel + 2) a' (fun i ch => dataSample m 0 (i * nch + ch)) nch path := by
  obtain ⟨a', k0, k1, k4, k2, k3, k5, k6, k7, k8, k9, k10⟩ := C60_back_raw_partial fp hfp g hB hNB a hb hm past hc hc' hset hhead hP hloop hmm0 hmm hadv nullOk hf
  obtain ⟨hop, -⟩ := playRaw_opens hm hc hc' k0
  obtain ⟨M, l1, l2, l3, l4⟩ := loop_stroll_live hfp (start := 0) hNB hm rfl hc hset hrate hrem0 (by simpa using hloop) hmm hadv hop k2 k3 k4 k5 k6
    (by rw [k7]; simp) k8 k9
  exact ⟨a', _, k0, driftLoopBackPath_inTune hfp l3.1 l3.2.1 l3.2.2.1 hslow l3.2.2.2.1 l3.2.2.2.2, sends_of k10 l2 hc rfl k1 k2 k3 l1 l4⟩

/-- Frames 10 to 13 again and again at a tenth of the speed. -/
def exFewTenth : FileReader := { rd := { rate := tenth, loopType := .repeat, loopStart := 10, loopFinish := 14, playStart := .arbitrary, playbackStart := 12 } }

theorem exFewTenth_settings : RepeatSettings exFewTenth.rd 1 :=
  ⟨⟨rfl, rfl⟩, rfl, by norm_num [exFewTenth, tenth], by norm_num [exFewTenth, tenth], exHalf_settings.flt, by norm_num [exFewTenth]⟩

example : ∃ a' path, exFewTenth.playWav exFineGeo (some ⟨exCount, 0, false⟩) (List.replicate 36 7) = .ok (true, a') ∧
    InTuneLoop path (firstFrame exFewTenth.rd + exFewTenth.rd.rem) exFewTenth.rd.rate (2 ^ 1 / 2 ^ 53) exFewTenth.rd.loopStart exFewTenth.rd.loopFinish ∧
    Sends Fp.ieee exFineGeo true (5 + 2) a' (fun i ch => dataSample exCount (48 + 8) (i * 2 + ch)) 2 path :=
  C92_loop_partial Fp.ieee ieee_representable exFineGeo (by decide) (by decide) exFewTenth exCount_file false (List.replicate 36 7) (by decide) (by decide) (mm := 1)
    exFewTenth_settings (by norm_num [exFewTenth]) (by norm_num [exFewTenth, tenth])
    ⟨by decide, by decide, by decide +kernel, by decide, by decide, Or.inr ⟨by decide, by decide +kernel⟩⟩
    (by decide) (by decide) (by decide) true (fuel := 5) (by decide)

example : ∃ a' path, exFewTenth.playRaw exFineGeo (some ⟨exCountRaw, 0, true⟩) 2 = .ok (true, a') ∧
    InTuneLoop path (firstFrame exFewTenth.rd + exFewTenth.rd.rem) exFewTenth.rd.rate (2 ^ 1 / 2 ^ 53) exFewTenth.rd.loopStart exFewTenth.rd.loopFinish ∧
    Sends Fp.ieee exFineGeo false (5 + 2) a' (fun i ch => dataSample exCountRaw 0 (i * 2 + ch)) 2 path :=
  C92_loop_raw_partial Fp.ieee ieee_representable exFineGeo (by decide) (by decide) exFewTenth exCountRaw_same.bytes (by rw [exCountRaw_length]; decide) true
    (by decide) (by decide) rfl (mm := 1)
    exFewTenth_settings (by norm_num [exFewTenth]) (by norm_num [exFewTenth, tenth])
    ⟨by decide, by decide, by rw [exCountRaw_length]; decide, by decide, by decide, Or.inr ⟨by decide, by rw [exCountRaw_length]; decide⟩⟩
    (by decide) (by decide) (by decide) false (fuel := 5) (by decide)

/-- Frames 3100 to 3103 again and again backwards at a tenth of the speed. -/
def exFewBackTenth : FileReader := { rd := { rate := -tenth, loopType := .repeat, loopStart := 3100, loopFinish := 3104, playStart := .arbitrary, playbackStart := 3101 } }

theorem exFewBackTenth_settings : RepeatBackSettings Fp.ieee exFewBackTenth.rd 1 :=
  ⟨⟨rfl, rfl⟩, rfl, by decide +kernel, by norm_num [exFewBackTenth, tenth], exHalf_settings.flt, by norm_num [exFewBackTenth],
    (fun h => nomatch h)⟩

example : ∃ a' path, exFewBackTenth.playWav exFinerGeo (some ⟨exCountMore, 0, false⟩) (List.replicate 36 7) = .ok (true, a') ∧
    InTuneLoopBack path ((3101 : Nat) + exFewBackTenth.rd.rem) tenth (2 ^ 1 / 2 ^ 53) exFewBackTenth.rd.loopStart (exFewBackTenth.rd.loopFinish - (2 : Nat)) ∧
    Sends Fp.ieee exFinerGeo true (5 + 2) a' (fun i ch => dataSample exCountMore (48 + 8) (i * 2 + ch)) 2 path :=
  C92_loop_back_partial Fp.ieee ieee_representable exFinerGeo (by decide) (by decide) exFewBackTenth exCountMore_file false (List.replicate 36 7) (by decide) (by decide) (mm := 1)
    exFewBackTenth_settings (ρ := tenth) rfl (by norm_num [tenth]) (by norm_num [exFewBackTenth]) (s := 3101) (exFewBack_start ((exCountMore.length : Int) / 2)) exFewBack_loop
    (by decide) (by decide) (by decide) true (fuel := 5) (by decide)

example : ∃ a' path, exFewBackTenth.playRaw exFinerGeo (some ⟨exCountMoreRaw, 0, true⟩) 2 = .ok (true, a') ∧
    InTuneLoopBack path ((3101 : Nat) + exFewBackTenth.rd.rem) tenth (2 ^ 1 / 2 ^ 53) exFewBackTenth.rd.loopStart (exFewBackTenth.rd.loopFinish - (2 : Nat)) ∧
    Sends Fp.ieee exFinerGeo false (5 + 2) a' (fun i ch => dataSample exCountMoreRaw 0 (i * 2 + ch)) 2 path :=
  C92_loop_back_raw_partial Fp.ieee ieee_representable exFinerGeo (by decide) (by decide) exFewBackTenth exCountMoreRaw_same.bytes (by rw [exCountMoreRaw_length]; decide) true
    (by decide) (by decide) rfl (mm := 1)
    exFewBackTenth_settings (ρ := tenth) rfl (by norm_num [tenth]) (by norm_num [exFewBackTenth]) (s := 3101) (exFewBack_start_raw ((exCountMoreRaw.length : Int) / 2)) exFewBack_loop_raw
    (by decide) (by decide) (by decide) false (fuel := 5) (by decide)

/-- **C92 refuted** (repeated at double speed).  From a tape with frames 0, 1, 2 over and over at double speed come 0, 2, 1, 0, 2, 1, …; the
player sends 0, 2, 0, 2, …: it always goes back to the first frame of the loop, however far beyond the end it was.  No path in tune gives these samples. -/
theorem C92_loop_refuted : firstTwelve { rate := 2, loopType := .repeat, loopFinish := 3 } exSixteen 2 = .ok [[0, 2, 0, 2, 0, 2, 0, 2, 0, 2, 0, 2]] ∧
    ¬ ∃ path : Nat → Option Nat, InTuneLoop path 0 2 (2 ^ 2 / 2 ^ 53) 0 3 ∧
      ∀ t < 12, ∃ i, path t = some i ∧ dataSample exSixteen 0 (i * 2) = [0, 2, 0, 2, 0, 2, 0, 2, 0, 2, 0, 2][t]! := by
  refine ⟨by decide +kernel, ?_⟩
  rintro ⟨path, hp, hs⟩
  obtain ⟨i, n, e1, e2, -, e4, e5⟩ := hp 4
  obtain ⟨j, f1, f2⟩ := hs 4 (by decide)
  rw [e1] at f1
  cases f1
  have hi : i < 3 := by omega
  have h0 : i = 0 := by
    interval_cases i
    · rfl
    · exact absurd f2 (by decide +kernel)
    · exact absurd f2 (by decide +kernel)
  subst h0
  norm_num at e4 e5
  have h1 : (n : ℚ) < 3 := by linarith
  have h2 : (2 : ℚ) < n := by linarith
  have h1' : n < 3 := by exact_mod_cast h1
  have h2' : 2 < n := by exact_mod_cast h2
  omega

end TVP
