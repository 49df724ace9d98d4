import Verif.Props.TuneLoop

/-!
# Properties C89, C90, C91 at any speed

C91 (raw and WAV files), C90 (a loop and the loop written out) and C89 (backwards and forwards) compare two players.  At speeds at
which the positions are not exact in double precision both drift; here: by the same.
-/

namespace TVP
open Spec

theorem some_power (r : ℚ) : ∃ k : Nat, r + 1 ≤ 2 ^ k := by
  refine ⟨⌈r + 1⌉.toNat, ?_⟩
  have h1 := Int.le_ceil (r + 1)
  have h2 : ⌈r + 1⌉ ≤ (⌈r + 1⌉.toNat : Int) := Int.self_le_toNat _
  have h3 : ((⌈r + 1⌉ : Int) : ℚ) ≤ ((⌈r + 1⌉.toNat : Int) : ℚ) := by exact_mod_cast h2
  have h4 : ((⌈r + 1⌉.toNat : Nat) : ℚ) ≤ 2 ^ ⌈r + 1⌉.toNat := by exact_mod_cast le_of_lt Nat.lt_two_pow_self
  push_cast at h3
  linarith

/-! ## Where the players are -/

theorem drift_wav (fp : Fp) (hfp : Representable fp) (g : Geo) (hB : g.B < 16384) (hNB : g.N * g.B ≤ 2 ^ 30) (a : FileReader) {m : List Nat}
    {off nch D : Nat} (hw : WavFile m off nch D) (hroom : off + 8 < m.length) (past : Bool) (junk : List Nat) (hj : junk.length = 36) (hc' : nch ≤ 32767)
    {R mm : Int} (hset : ForwardSettings a.rd R) (hrem0 : 0 ≤ a.rd.rem)
    (hstart : a.rd.playStart = .arbitrary → 0 ≤ a.rd.playbackStart ∧ a.rd.playbackStart ≤ (D / 2 / nch : Nat))
    (hmm0 : 0 ≤ mm) (hmm : 2 * mm + 1 ≤ g.N) (hadv : 128 * (nch * (R + 1)) ≤ mm * g.B) (nullOk : Bool) {fuel : Nat} (hf : g.N ≤ fuel + 2) :
    ∃ a', a.playWav g (some ⟨m, 0, past⟩) junk = .ok (true, a') ∧
      Sends fp g nullOk (fuel + 2) a' (fun i ch => dataSample m (off + 8) (i * nch + ch)) nch (driftPath fp (D / 2 / nch) (startFrame a.rd + a.rd.rem) a.rd.rate) := by
  have heven := hw.even
  have hin := hw.inFile
  obtain ⟨k, hk⟩ := some_power a.rd.rate
  obtain ⟨a', k0, k1, k2, k3, k4, k6, k7, k5, -, k8⟩ := C17_wav fp hfp g hB hNB a hw.bytes hw.small past junk hj hw.good hw.depth hw.data hw.chans hw.some hc' hw.len hw.inFile hroom hset hstart
    hmm0 hmm hadv nullOk (fuel := fuel + 1) (by omega)
  have hmul : (D / 2 / nch) * nch ≤ D / 2 := Nat.div_mul_le_self _ _
  obtain ⟨l1, l2, l3, l4⟩ := amble_live hfp (start := off + 8) (F := D / 2 / nch) hNB hw.small hw.some (by clear hw; omega) hset hrem0 hstart hmm hadv (playWav_opens k0)
    k2 k3 k4 k5 k6 k7 hk
  exact ⟨a', k0, sends_of k8 l2 hw.some (by clear hw; omega) k1 k2 k3 l1 l4⟩

theorem drift_raw (fp : Fp) (hfp : Representable fp) (g : Geo) (hB : g.B < 16384) (hNB : g.N * g.B ≤ 2 ^ 30) (a : FileReader) {m : List Nat}
    (hb : IsBytes m) (h0 : 0 < m.length) (hm : m.length < 2 ^ 31) (past : Bool) {nch : Nat} (hc : 1 ≤ nch) (hc' : nch ≤ 32767) (hhead : a.rd.header = 0)
    {R mm : Int} (hset : ForwardSettings a.rd R) (hrem0 : 0 ≤ a.rd.rem)
    (hstart : a.rd.playStart = .arbitrary → 0 ≤ a.rd.playbackStart ∧ a.rd.playbackStart ≤ (m.length / 2 / nch : Nat))
    (hmm0 : 0 ≤ mm) (hmm : 2 * mm + 1 ≤ g.N) (hadv : 128 * (nch * (R + 1)) ≤ mm * g.B) (nullOk : Bool) {fuel : Nat} (hf : g.N ≤ fuel + 2) :
    ∃ a', a.playRaw g (some ⟨m, 0, past⟩) nch = .ok (true, a') ∧
      Sends fp g nullOk (fuel + 2) a' (fun i ch => dataSample m 0 (i * nch + ch)) nch (driftPath fp (m.length / 2 / nch) (startFrame a.rd + a.rd.rem) a.rd.rate) ∧
      ∀ t i, driftPath fp (m.length / 2 / nch) (startFrame a.rd + a.rd.rem) a.rd.rate t = some i → 0 + 2 * ((i + 1) * nch) ≤ m.length := by
  obtain ⟨k, hk⟩ := some_power a.rd.rate
  obtain ⟨a', k0, k1, k2, k4, k5, k6, k7, k8⟩ := C17_raw fp hfp g hB hNB a hb h0 hm past hc hc' hset hhead hstart hmm0 hmm hadv nullOk (fuel := fuel + 1) (by omega)
  obtain ⟨hop, k3⟩ := playRaw_opens hm hc hc' k0
  have hdiv := Nat.div_mul_le_self (m.length / 2) nch
  obtain ⟨l1, l2, l3, l4⟩ := amble_live hfp (start := 0) (F := m.length / 2 / nch) hNB hm hc (by omega) hset hrem0 hstart hmm hadv hop k2 (k3.trans hhead) k4
    (by rw [k5]; simp) k6 k7 hk
  exact ⟨a', k0, sends_of k8 l2 hc rfl k1 k2 (k3.trans hhead) l1 l4, l4⟩

theorem drift_back_wav (fp : Fp) (hfp : Representable fp) (g : Geo) (hB : g.B < 16384) (hNB : g.N * g.B ≤ 2 ^ 30) (a : FileReader) {m : List Nat}
    {off nch D : Nat} (hw : WavFile m off nch D) (past : Bool) (junk : List Nat) (hj : junk.length = 36) (hc' : nch ≤ 32767)
    {R mm : Int} (hset : BackwardSettings fp a.rd R) {ρ : ℚ} (hrate : a.rd.rate = -ρ) (hrem0 : a.rd.rem ≤ 0) {s : Nat} (hs : s < D / 2 / nch)
    (hP : StartsBackAt a.rd ((m.length : Int) / 2) ((off + 8) / 2 : Nat) (D / 2 / nch : Nat) nch ((off + 8) / 2 + s * nch : Nat))
    (hgood : GoodStart g m ((off + 8) / 2 : Nat) nch ((off + 8) / 2 + s * nch : Nat))
    (hmm0 : 0 ≤ mm) (hmm : 2 * mm + 1 ≤ g.N) (hadv : 128 * (nch * (R + 1)) ≤ mm * g.B) (nullOk : Bool) {fuel : Nat} (hf : g.N ≤ fuel + 2) :
    ∃ a', a.playWav g (some ⟨m, 0, past⟩) junk = .ok (true, a') ∧
      Sends fp g nullOk (fuel + 2) a' (fun i ch => dataSample m (off + 8) (i * nch + ch)) nch (driftBackPath fp (s + a.rd.rem) ρ) := by
  have heven := hw.even
  have hin := hw.inFile
  obtain ⟨k, hk⟩ := some_power ρ
  obtain ⟨a', k0, k1, k2, k3, k4, k5, k6, k7, k8⟩ := C18_wav_partial fp hfp g hB hNB a hw.bytes hw.small past junk hj hw.good hw.depth hw.data hw.chans hw.some hc' hw.len hw.inFile hset hP hgood
    hmm0 hmm hadv nullOk (fuel := fuel + 1) (by omega)
  have hmul : (D / 2 / nch) * nch ≤ D / 2 := Nat.div_mul_le_self _ _
  obtain ⟨l1, l2, l3, l4⟩ := stroll_live hfp (start := off + 8) (F := D / 2 / nch) hNB hw.small hw.some (by clear hw; omega) hset hrate hrem0 hs hmm hadv (playWav_opens k0)
    k2 k3 k4 k5 k6 k7 hk
  exact ⟨a', k0, sends_of k8 l2 hw.some (by clear hw; omega) k1 k2 k3 l1 fun t i hi => (l4 t i hi).2⟩

theorem drift_back_raw (fp : Fp) (hfp : Representable fp) (g : Geo) (hB : g.B < 16384) (hNB : g.N * g.B ≤ 2 ^ 30) (a : FileReader) {m : List Nat}
    (hb : IsBytes m) (hm : m.length < 2 ^ 31) (past : Bool) {nch : Nat} (hc : 1 ≤ nch) (hc' : nch ≤ 32767) (hhead : a.rd.header = 0)
    {R mm : Int} (hset : BackwardSettings fp a.rd R) {ρ : ℚ} (hrate : a.rd.rate = -ρ) (hrem0 : a.rd.rem ≤ 0) {s : Nat} (hs : s < m.length / 2 / nch)
    (hP : StartsBackAt a.rd ((m.length : Int) / 2) 0 (m.length / 2 / nch : Nat) nch (s * nch : Nat)) (hgood : GoodStart g m 0 nch (s * nch : Nat))
    (hmm0 : 0 ≤ mm) (hmm : 2 * mm + 1 ≤ g.N) (hadv : 128 * (nch * (R + 1)) ≤ mm * g.B) (nullOk : Bool) {fuel : Nat} (hf : g.N ≤ fuel + 2) :
    ∃ a', a.playRaw g (some ⟨m, 0, past⟩) nch = .ok (true, a') ∧
      Sends fp g nullOk (fuel + 2) a' (fun i ch => dataSample m 0 (i * nch + ch)) nch (driftBackPath fp (s + a.rd.rem) ρ) ∧
      ∀ t i, driftBackPath fp (s + a.rd.rem) ρ t = some i → 0 + 2 * ((i + 1) * nch) ≤ m.length := by
  obtain ⟨k, hk⟩ := some_power ρ
  obtain ⟨a', k0, k1, k2, k4, k5, k6, k7, k8⟩ := C18_raw_partial fp hfp g hB hNB a hb hm past hc hc' hset hhead hP hgood hmm0 hmm hadv nullOk (fuel := fuel + 1) (by omega)
  obtain ⟨hop, k3⟩ := playRaw_opens hm hc hc' k0
  have hdiv := Nat.div_mul_le_self (m.length / 2) nch
  obtain ⟨l1, l2, l3, l4⟩ := stroll_live hfp (start := 0) (F := m.length / 2 / nch) hNB hm hc (by omega) hset hrate hrem0 hs hmm hadv hop k2 (k3.trans hhead) k4
    (by rw [k5]; simp) k6 k7 hk
  exact ⟨a', k0, sends_of k8 l2 hc rfl k1 k2 (k3.trans hhead) l1 fun t i hi => (l4 t i hi).2, fun t i hi => (l4 t i hi).2⟩

theorem drift_loop_wav (fp : Fp) (hfp : Representable fp) (g : Geo) (hB : g.B < 16384) (hNB : g.N * g.B ≤ 2 ^ 30) (a : FileReader) {m : List Nat}
    {off nch D : Nat} (hw : WavFile m off nch D) (past : Bool) (junk : List Nat) (hj : junk.length = 36) (hc' : nch ≤ 32767)
    {R mm : Int} (hset : RepeatSettings a.rd R) (hrem0 : 0 ≤ a.rd.rem)
    (hloop : GoodLoop g m ((off + 8) / 2 : Nat) nch a.rd.loopStart a.rd.loopFinish (firstFrame a.rd))
    (hmm0 : 0 ≤ mm) (hmm : 2 * mm + 5 ≤ g.N) (hadv : 128 * (nch * (R + 1)) ≤ mm * g.B) (nullOk : Bool) {fuel : Nat} (hf : g.N ≤ fuel + 2) :
    (0 ≤ a.rd.loopStart ∧ a.rd.loopStart < a.rd.loopFinish ∧ IsFloat 53 (-1074) (Int.fract ((firstFrame a.rd : ℚ) + a.rd.rem)) ∧ 0 ≤ ⌊(firstFrame a.rd : ℚ) + a.rd.rem⌋ ∧
      ⌊(firstFrame a.rd : ℚ) + a.rd.rem⌋ < a.rd.loopFinish) ∧
    ∃ a', a.playWav g (some ⟨m, 0, past⟩) junk = .ok (true, a') ∧
      Sends fp g nullOk (fuel + 2) a' (fun i ch => dataSample m (off + 8) (i * nch + ch)) nch
        (driftLoopPath fp a.rd.loopStart a.rd.loopFinish (firstFrame a.rd + a.rd.rem) a.rd.rate) := by
  have heven := hw.even
  obtain ⟨a', k0, k1, k2, k3, k4, k5, k6, k7, k8, k9, k10⟩ := C60_wav_partial fp hfp g hB hNB a hw.bytes hw.small past junk hj hw.good hw.depth hw.data hw.chans hw.some hc' hset hloop
    hmm0 hmm hadv nullOk hf
  have heven' : (off + 8) % 2 = 0 := by clear hw hloop; omega
  obtain ⟨l1, l2, l3, l4⟩ := loop_amble_live hfp (start := off + 8) hNB hw.small heven' hw.some hset hrem0 hloop hmm hadv (playWav_opens k0) k2 k3 k4 k5 k6 k7 k8 k9
  exact ⟨l3, a', k0, sends_of k10 l2 hw.some heven' k1 k2 k3 l1 l4⟩

theorem drift_loop_raw (fp : Fp) (hfp : Representable fp) (g : Geo) (hB : g.B < 16384) (hNB : g.N * g.B ≤ 2 ^ 30) (a : FileReader) {m : List Nat}
    (hb : IsBytes m) (hm : m.length < 2 ^ 31) (past : Bool) {nch : Nat} (hc : 1 ≤ nch) (hc' : nch ≤ 32767) (hhead : a.rd.header = 0)
    {R mm : Int} (hset : RepeatSettings a.rd R) (hrem0 : 0 ≤ a.rd.rem)
    (hloop : GoodLoop g m 0 nch a.rd.loopStart a.rd.loopFinish (firstFrame a.rd))
    (hmm0 : 0 ≤ mm) (hmm : 2 * mm + 5 ≤ g.N) (hadv : 128 * (nch * (R + 1)) ≤ mm * g.B) (nullOk : Bool) {fuel : Nat} (hf : g.N ≤ fuel + 2) :
    ∃ a', a.playRaw g (some ⟨m, 0, past⟩) nch = .ok (true, a') ∧
      Sends fp g nullOk (fuel + 2) a' (fun i ch => dataSample m 0 (i * nch + ch)) nch (driftLoopPath fp a.rd.loopStart a.rd.loopFinish (firstFrame a.rd + a.rd.rem) a.rd.rate) ∧
      ∀ t i, driftLoopPath fp a.rd.loopStart a.rd.loopFinish (firstFrame a.rd + a.rd.rem) a.rd.rate t = some i → 0 + 2 * ((i + 1) * nch) ≤ m.length := by
  obtain ⟨a', k0, k1, k2, k3, k4, k5, k6, k7, k8, k9, k10⟩ := C60_raw_partial fp hfp g hB hNB a hb hm past hc hc' hset hhead hloop hmm0 hmm hadv nullOk hf
  obtain ⟨hop, -⟩ := playRaw_opens hm hc hc' k0
  obtain ⟨l1, l2, l3, l4⟩ := loop_amble_live hfp (start := 0) hNB hm rfl hc hset hrem0 hloop hmm hadv hop k2 k3 k4 k5 k6 (by rw [k7]; simp) k8 k9
  exact ⟨a', k0, sends_of k10 l2 hc rfl k1 k2 k3 l1 l4, l4⟩

theorem drift_loop_back_wav (fp : Fp) (hfp : Representable fp) (g : Geo) (hB : g.B < 16384) (hNB : g.N * g.B ≤ 2 ^ 30) (a : FileReader) {m : List Nat}
    {off nch D : Nat} (hw : WavFile m off nch D) (past : Bool) (junk : List Nat) (hj : junk.length = 36) (hc' : nch ≤ 32767)
    {R mm : Int} (hset : RepeatBackSettings fp a.rd R) {ρ : ℚ} (hrate : a.rd.rate = -ρ) (hrem0 : a.rd.rem ≤ 0) {s : Nat}
    (hP : StartsBackAt a.rd ((m.length : Int) / 2) ((off + 8) / 2 : Nat) a.rd.loopFinish nch ((off + 8) / 2 + s * nch : Nat))
    (hloop : GoodLoopBack g m ((off + 8) / 2 : Nat) nch a.rd.loopStart a.rd.loopFinish ((off + 8) / 2 + s * nch : Nat))
    (hmm0 : 0 ≤ mm) (hmm : 2 * mm + 5 ≤ g.N) (hadv : 128 * (nch * (R + 1)) + nch * nch ≤ mm * g.B) (nullOk : Bool) {fuel : Nat} (hf : g.N ≤ fuel + 2) :
    (0 ≤ a.rd.loopStart ∧ a.rd.loopStart ≤ a.rd.loopFinish - nch ∧ 0 ≤ ρ ∧ IsFloat 53 (-1074) (((s : Nat) : ℚ) + a.rd.rem - ⌈((s : Nat) : ℚ) + a.rd.rem⌉) ∧
      a.rd.loopStart ≤ ⌈((s : Nat) : ℚ) + a.rd.rem⌉) ∧
    ∃ a', a.playWav g (some ⟨m, 0, past⟩) junk = .ok (true, a') ∧
      Sends fp g nullOk (fuel + 2) a' (fun i ch => dataSample m (off + 8) (i * nch + ch)) nch (driftLoopBackPath fp a.rd.loopStart (a.rd.loopFinish - nch) (s + a.rd.rem) ρ) := by
  have heven := hw.even
  obtain ⟨a', k0, k1, k4, k2, k3, k5, k6, k7, k8, k9, k10⟩ := C60_back_wav_partial fp hfp g hB hNB a hw.bytes hw.small past junk hj hw.good hw.depth hw.data hw.chans hw.some hc' hset hP hloop
    hmm0 hmm hadv nullOk hf
  have heven' : (off + 8) % 2 = 0 := by clear hw hloop hP; omega
  obtain ⟨M, l1, l2, l3, l4⟩ := loop_stroll_live hfp (start := off + 8) hNB hw.small heven' hw.some hset hrate hrem0 hloop hmm hadv (playWav_opens k0) k2 k3 k4 k5 k6 k7 k8 k9
  exact ⟨l3, a', k0, sends_of k10 l2 hw.some heven' k1 k2 k3 l1 l4⟩

theorem drift_loop_back_raw (fp : Fp) (hfp : Representable fp) (g : Geo) (hB : g.B < 16384) (hNB : g.N * g.B ≤ 2 ^ 30) (a : FileReader) {m : List Nat}
    (hb : IsBytes m) (hm : m.length < 2 ^ 31) (past : Bool) {nch : Nat} (hc : 1 ≤ nch) (hc' : nch ≤ 32767) (hhead : a.rd.header = 0)
    {R mm : Int} (hset : RepeatBackSettings fp a.rd R) {ρ : ℚ} (hrate : a.rd.rate = -ρ) (hrem0 : a.rd.rem ≤ 0) {s : Nat}
    (hP : StartsBackAt a.rd ((m.length : Int) / 2) 0 a.rd.loopFinish nch (s * nch : Nat))
    (hloop : GoodLoopBack g m 0 nch a.rd.loopStart a.rd.loopFinish (s * nch : Nat))
    (hmm0 : 0 ≤ mm) (hmm : 2 * mm + 5 ≤ g.N) (hadv : 128 * (nch * (R + 1)) + nch * nch ≤ mm * g.B) (nullOk : Bool) {fuel : Nat} (hf : g.N ≤ fuel + 2) :
    ∃ a', a.playRaw g (some ⟨m, 0, past⟩) nch = .ok (true, a') ∧
      Sends fp g nullOk (fuel + 2) a' (fun i ch => dataSample m 0 (i * nch + ch)) nch (driftLoopBackPath fp a.rd.loopStart (a.rd.loopFinish - nch) (s + a.rd.rem) ρ) ∧
      ∀ t i, driftLoopBackPath fp a.rd.loopStart (a.rd.loopFinish - nch) (s + a.rd.rem) ρ t = some i → 0 + 2 * ((i + 1) * nch) ≤ m.length := by
  obtain ⟨a', k0, k1, k4, k2, k3, k5, k6, k7, k8, k9, k10⟩ := C60_back_raw_partial fp hfp g hB hNB a hb hm past hc hc' hset hhead hP hloop hmm0 hmm hadv nullOk hf
  obtain ⟨hop, -⟩ := playRaw_opens hm hc hc' k0
  obtain ⟨M, l1, l2, l3, l4⟩ := loop_stroll_live hfp (start := 0) hNB hm rfl hc hset hrate hrem0 (by simpa using hloop) hmm hadv hop k2 k3 k4 k5 k6
    (by rw [k7]; simp) k8 k9
  exact ⟨a', k0, sends_of k10 l2 hc rfl k1 k2 k3 l1 l4, l4⟩

/-! ## Raw and WAV files -/

/-- **C91** (any speed, forwards).  A raw file sounds exactly like a WAV file with its samples, from the first block to the end. -/
theorem C91_any_forward_partial (fp : Fp) (hfp : Representable fp) {g g' : Geo} (hB : g.B < 16384) (hB' : g'.B < 16384) (hNB : g.N * g.B ≤ 2 ^ 30) (hNB' : g'.N * g'.B ≤ 2 ^ 30)
    (a : FileReader) {m m' : List Nat} {off nch D : Nat} (hw : WavFile m off nch D) (hw' : SameFrames m off nch D m') (hD : off + 8 < m.length) (h0 : 0 < m'.length)
    (past past' : Bool) (junk : List Nat) (hj : junk.length = 36) (hc' : nch ≤ 32767) (hhead : a.rd.header = 0)
    {R mm mm' : Int} (hset : ForwardSettings a.rd R) (hrem0 : 0 ≤ a.rd.rem)
    (hstart : a.rd.playStart = .arbitrary → 0 ≤ a.rd.playbackStart ∧ a.rd.playbackStart ≤ (D / 2 / nch : Nat))
    (hmm0 : 0 ≤ mm) (hmm : 2 * mm + 1 ≤ g.N) (hadv : 128 * (nch * (R + 1)) ≤ mm * g.B)
    (hmm0' : 0 ≤ mm') (hmm' : 2 * mm' + 1 ≤ g'.N) (hadv' : 128 * (nch * (R + 1)) ≤ mm' * g'.B)
    (nullOk nullOk' : Bool) {fuel fuel' : Nat} (hf : g.N ≤ fuel + 2) (hf' : g'.N ≤ fuel' + 2) :
    ∃ a' b', a.playWav g (some ⟨m, 0, past⟩) junk = .ok (true, a') ∧ a.playRaw g' (some ⟨m', 0, past'⟩) nch = .ok (true, b') ∧
      SoundAlike fp g g' nullOk nullOk' (fuel + 2) (fuel' + 2) a' b' (fun _ => True) := by
  obtain ⟨a', k1, k2⟩ := drift_wav fp hfp g hB hNB a hw hD past junk hj hc' hset hrem0 hstart hmm0 hmm hadv nullOk hf
  obtain ⟨b', l1, l2, l3⟩ := drift_raw fp hfp g' hB' hNB' a hw'.bytes h0 hw'.small past' hw.some hc' hhead hset hrem0 (by rw [hw'.number]; exact hstart) hmm0' hmm' hadv' nullOk' hf'
  rw [← hw'.number] at k2
  exact ⟨a', b', k1, l1, hw'.alike hw.some k2 l2 fun t i hi => raw_frame hw.some (l3 t i hi)⟩

/-- **C91** (any speed, backwards). -/
theorem C91_any_back_partial (fp : Fp) (hfp : Representable fp) {g g' : Geo} (hB : g.B < 16384) (hB' : g'.B < 16384) (hNB : g.N * g.B ≤ 2 ^ 30) (hNB' : g'.N * g'.B ≤ 2 ^ 30)
    (a : FileReader) {m m' : List Nat} {off nch D : Nat} (hw : WavFile m off nch D) (hw' : SameFrames m off nch D m')
    (past past' : Bool) (junk : List Nat) (hj : junk.length = 36) (hc' : nch ≤ 32767) (hhead : a.rd.header = 0)
    {R mm mm' : Int} (hset : BackwardSettings fp a.rd R) (hrem0 : a.rd.rem ≤ 0)
    {s : Nat} (hs : s < D / 2 / nch)
    (hP : StartsBackAt a.rd ((m.length : Int) / 2) ((off + 8) / 2 : Nat) (D / 2 / nch : Nat) nch ((off + 8) / 2 + s * nch : Nat))
    (hP' : StartsBackAt a.rd ((m'.length : Int) / 2) 0 (D / 2 / nch : Nat) nch (s * nch : Nat))
    (hgood : GoodStart g m ((off + 8) / 2 : Nat) nch ((off + 8) / 2 + s * nch : Nat)) (hgood' : GoodStart g' m' 0 nch (s * nch : Nat))
    (hmm0 : 0 ≤ mm) (hmm : 2 * mm + 1 ≤ g.N) (hadv : 128 * (nch * (R + 1)) ≤ mm * g.B)
    (hmm0' : 0 ≤ mm') (hmm' : 2 * mm' + 1 ≤ g'.N) (hadv' : 128 * (nch * (R + 1)) ≤ mm' * g'.B)
    (nullOk nullOk' : Bool) {fuel fuel' : Nat} (hf : g.N ≤ fuel + 2) (hf' : g'.N ≤ fuel' + 2) :
    ∃ a' b', a.playWav g (some ⟨m, 0, past⟩) junk = .ok (true, a') ∧ a.playRaw g' (some ⟨m', 0, past'⟩) nch = .ok (true, b') ∧
      SoundAlike fp g g' nullOk nullOk' (fuel + 2) (fuel' + 2) a' b' (fun _ => True) := by
  have hrate : a.rd.rate = -(-a.rd.rate) := by ring
  obtain ⟨a', k1, k2⟩ := drift_back_wav fp hfp g hB hNB a hw past junk hj hc' hset hrate hrem0 hs hP hgood hmm0 hmm hadv nullOk hf
  obtain ⟨b', l1, l2, l3⟩ := drift_back_raw fp hfp g' hB' hNB' a hw'.bytes hw'.small past' hw.some hc' hhead hset hrate hrem0 (s := s) (by rw [hw'.number]; exact hs)
    (by rw [hw'.number]; exact hP') hgood' hmm0' hmm' hadv' nullOk' hf'
  exact ⟨a', b', k1, l1, hw'.alike hw.some k2 l2 fun t i hi => raw_frame hw.some (l3 t i hi)⟩

/-- **C91** (any speed, repeated forwards). -/
theorem C91_any_loop_partial (fp : Fp) (hfp : Representable fp) {g g' : Geo} (hB : g.B < 16384) (hB' : g'.B < 16384) (hNB : g.N * g.B ≤ 2 ^ 30) (hNB' : g'.N * g'.B ≤ 2 ^ 30)
    (a : FileReader) {m m' : List Nat} {off nch D : Nat} (hw : WavFile m off nch D) (hw' : SameFrames m off nch D m')
    (past past' : Bool) (junk : List Nat) (hj : junk.length = 36) (hc' : nch ≤ 32767) (hhead : a.rd.header = 0)
    {R mm mm' : Int} (hset : RepeatSettings a.rd R) (hrem0 : 0 ≤ a.rd.rem)
    (hloop : GoodLoop g m ((off + 8) / 2 : Nat) nch a.rd.loopStart a.rd.loopFinish (firstFrame a.rd))
    (hloop' : GoodLoop g' m' 0 nch a.rd.loopStart a.rd.loopFinish (firstFrame a.rd))
    (hmm0 : 0 ≤ mm) (hmm : 2 * mm + 5 ≤ g.N) (hadv : 128 * (nch * (R + 1)) ≤ mm * g.B)
    (hmm0' : 0 ≤ mm') (hmm' : 2 * mm' + 5 ≤ g'.N) (hadv' : 128 * (nch * (R + 1)) ≤ mm' * g'.B)
    (nullOk nullOk' : Bool) {fuel fuel' : Nat} (hf : g.N ≤ fuel + 2) (hf' : g'.N ≤ fuel' + 2) :
    ∃ a' b', a.playWav g (some ⟨m, 0, past⟩) junk = .ok (true, a') ∧ a.playRaw g' (some ⟨m', 0, past'⟩) nch = .ok (true, b') ∧
      SoundAlike fp g g' nullOk nullOk' (fuel + 2) (fuel' + 2) a' b' (fun _ => True) := by
  obtain ⟨-, a', k1, k2⟩ := drift_loop_wav fp hfp g hB hNB a hw past junk hj hc' hset hrem0 hloop hmm0 hmm hadv nullOk hf
  obtain ⟨b', l1, l2, l3⟩ := drift_loop_raw fp hfp g' hB' hNB' a hw'.bytes hw'.small past' hw.some hc' hhead hset hrem0 hloop' hmm0' hmm' hadv' nullOk' hf'
  exact ⟨a', b', k1, l1, hw'.alike hw.some k2 l2 fun t i hi => raw_frame hw.some (l3 t i hi)⟩

/-- **C91** (any speed, repeated backwards). -/
theorem C91_any_loop_back_partial (fp : Fp) (hfp : Representable fp) {g g' : Geo} (hB : g.B < 16384) (hB' : g'.B < 16384) (hNB : g.N * g.B ≤ 2 ^ 30) (hNB' : g'.N * g'.B ≤ 2 ^ 30)
    (a : FileReader) {m m' : List Nat} {off nch D : Nat} (hw : WavFile m off nch D) (hw' : SameFrames m off nch D m')
    (past past' : Bool) (junk : List Nat) (hj : junk.length = 36) (hc' : nch ≤ 32767) (hhead : a.rd.header = 0)
    {R mm mm' : Int} (hset : RepeatBackSettings fp a.rd R) (hrem0 : a.rd.rem ≤ 0) {s : Nat}
    (hP : StartsBackAt a.rd ((m.length : Int) / 2) ((off + 8) / 2 : Nat) a.rd.loopFinish nch ((off + 8) / 2 + s * nch : Nat))
    (hP' : StartsBackAt a.rd ((m'.length : Int) / 2) 0 a.rd.loopFinish nch (s * nch : Nat))
    (hloop : GoodLoopBack g m ((off + 8) / 2 : Nat) nch a.rd.loopStart a.rd.loopFinish ((off + 8) / 2 + s * nch : Nat))
    (hloop' : GoodLoopBack g' m' 0 nch a.rd.loopStart a.rd.loopFinish (s * nch : Nat))
    (hmm0 : 0 ≤ mm) (hmm : 2 * mm + 5 ≤ g.N) (hadv : 128 * (nch * (R + 1)) + nch * nch ≤ mm * g.B)
    (hmm0' : 0 ≤ mm') (hmm' : 2 * mm' + 5 ≤ g'.N) (hadv' : 128 * (nch * (R + 1)) + nch * nch ≤ mm' * g'.B)
    (nullOk nullOk' : Bool) {fuel fuel' : Nat} (hf : g.N ≤ fuel + 2) (hf' : g'.N ≤ fuel' + 2) :
    ∃ a' b', a.playWav g (some ⟨m, 0, past⟩) junk = .ok (true, a') ∧ a.playRaw g' (some ⟨m', 0, past'⟩) nch = .ok (true, b') ∧
      SoundAlike fp g g' nullOk nullOk' (fuel + 2) (fuel' + 2) a' b' (fun _ => True) := by
  have hrate : a.rd.rate = -(-a.rd.rate) := by ring
  obtain ⟨-, a', k1, k2⟩ := drift_loop_back_wav fp hfp g hB hNB a hw past junk hj hc' hset hrate hrem0 hP hloop hmm0 hmm hadv nullOk hf
  obtain ⟨b', l1, l2, l3⟩ := drift_loop_back_raw fp hfp g' hB' hNB' a hw'.bytes hw'.small past' hw.some hc' hhead hset hrate hrem0 hP' hloop' hmm0' hmm' hadv' nullOk' hf'
  exact ⟨a', b', k1, l1, hw'.alike hw.some k2 l2 fun t i hi => raw_frame hw.some (l3 t i hi)⟩

/-! ## A loop and the loop written out -/

/-- A loop and the same loop written out say the same. -/
theorem told_drift {fp : Fp} (hfp : Representable fp) {U : Int → Int} {v w : Nat → Nat → Int} {nch F : Nat} {p : Nat → Option Nat} {q v0 : Int} {f ρ : ℚ} (hρ : 0 ≤ ρ)
    (hρ1 : ρ ≤ 1) (hf : 0 ≤ f) (hf1 : f < 1) (hflt : IsFloat 53 (-1074) f)
    (hp : ∀ t : Nat, p t = some (U ⌊driftAt fp ((v0 : ℚ) + f) ρ t⌋).toNat) (hq : 0 ≤ q)
    (hout : ∀ (j ch : Nat), q ≤ j → j < F → ch < nch → w j ch = v (U (v0 + (j - q))).toNat ch) {n t : Nat}
    (hn : q + f + 128 * n * (ρ + 2 ^ 1 / 2 ^ 53) ≤ F) (ht : t < 128 * n) : SameTold v w nch p (driftPath fp F (q + f) ρ) t := by
  have hte : ((q : ℚ) + f) = ((v0 : ℚ) + f) + ((q - v0 : Int) : ℚ) := by push_cast; ring
  have hfl : ⌊(q : ℚ) + f⌋ = q := by rw [Int.floor_eq_iff]; constructor <;> linarith
  have hfr : Int.fract ((q : ℚ) + f) = f := by unfold Int.fract; rw [hfl]; ring
  have h1 : ⌊driftAt fp ((q : ℚ) + f) ρ t⌋ = ⌊driftAt fp ((v0 : ℚ) + f) ρ t⌋ + (q - v0) := by rw [hte, drift_shift, Int.floor_add_intCast]
  have h2 : q ≤ ⌊driftAt fp ((q : ℚ) + f) ρ t⌋ := by
    clear ht hn h1
    induction t with
    | zero => show q ≤ ⌊(q : ℚ) + f⌋; rw [hfl]
    | succ t ih => exact le_trans ih (drift_mono fp hfp hρ (by rw [hfr]; exact hflt) t).2
  have h3 : ⌊driftAt fp ((q : ℚ) + f) ρ t⌋ < F := by
    have hd := abs_le.1 (drift_near fp (x := (q : ℚ) + f) (k := 1) hρ (by linarith) t)
    have h4 : (t : ℚ) < 128 * n := by exact_mod_cast ht
    have h5 : (t : ℚ) * (ρ + 2 ^ 1 / 2 ^ 53) < 128 * n * (ρ + 2 ^ 1 / 2 ^ 53) := mul_lt_mul_of_pos_right h4 (by positivity)
    rw [Int.floor_lt]
    push_cast
    rw [mul_add] at h5
    linarith [hd.2]
  refine ⟨?_, fun i j ch hi hjj hch => ?_⟩
  · unfold driftPath
    rw [if_pos h3, hp]; rfl
  · unfold driftPath at hjj
    rw [if_pos h3] at hjj
    rw [hp] at hi
    have hi' := Option.some.inj hi
    have hj' := Option.some.inj hjj
    have hjq : (j : Int) = ⌊driftAt fp ((q : ℚ) + f) ρ t⌋ := by omega
    rw [hout j ch (by omega) (by omega) hch, hjq, h1, show v0 + (⌊driftAt fp ((v0 : ℚ) + f) ρ t⌋ + (q - v0) - q) = ⌊driftAt fp ((v0 : ℚ) + f) ρ t⌋ by ring, hi']

/-- **C90** (any speed below normal).  Let `m'` hold, from its frame `q` on, the frames of `m` in the order
in which the loop meets them.  Then the repeated loop in `m` sounds exactly like `m'` played once, for as long as `m'` lasts. -/
theorem C90_any_partial (fp : Fp) (hfp : Representable fp) {g g' : Geo} (hB : g.B < 16384) (hB' : g'.B < 16384) (hNB : g.N * g.B ≤ 2 ^ 30) (hNB' : g'.N * g'.B ≤ 2 ^ 30)
    (a b : FileReader) {m m' : List Nat} {off off' nch D D' : Nat} (hw : WavFile m off nch D) (hw' : WavFile m' off' nch D') {q : Int}
    (hout : ∀ (j ch : Nat), q ≤ j → j < D' / 2 / nch → ch < nch →
      dataSample m' (off' + 8) (j * nch + ch) = dataSample m (off + 8) ((unroll a.rd.loopStart a.rd.loopFinish (firstFrame a.rd + (j - q))).toNat * nch + ch))
    (past past' : Bool) (junk junk' : List Nat) (hj : junk.length = 36) (hj' : junk'.length = 36) (hc' : nch ≤ 32767) {mm mm' : Int}
    (hset : RepeatSettings a.rd 1) (hset' : ForwardSettings b.rd 1) (hslow : a.rd.rate ≤ 1 - 1 / 2 ^ 53) (hrate : b.rd.rate = a.rd.rate)
    (hrem : b.rd.rem = a.rd.rem) (hrem0 : 0 ≤ a.rd.rem) (hq : (if b.rd.playStart = .arbitrary then b.rd.playbackStart else 0) = q) (hq0 : 0 ≤ q)
    (hqD : q ≤ (D' / 2 / nch : Nat)) (hroom' : off' + 8 < m'.length)
    (hloop : GoodLoop g m ((off + 8) / 2 : Nat) nch a.rd.loopStart a.rd.loopFinish (firstFrame a.rd))
    (hmm0 : 0 ≤ mm) (hmm : 2 * mm + 5 ≤ g.N) (hadv : 128 * (nch * 2) ≤ mm * g.B)
    (hmm0' : 0 ≤ mm') (hmm' : 2 * mm' + 1 ≤ g'.N) (hadv' : 128 * (nch * 2) ≤ mm' * g'.B)
    (nullOk nullOk' : Bool) {fuel fuel' : Nat} (hf : g.N ≤ fuel + 2) (hf' : g'.N ≤ fuel' + 2) :
    ∃ a' b', a.playWav g (some ⟨m, 0, past⟩) junk = .ok (true, a') ∧ b.playWav g' (some ⟨m', 0, past'⟩) junk' = .ok (true, b') ∧
      SoundAlike fp g g' nullOk nullOk' (fuel + 2) (fuel' + 2) a' b' (fun n => q + a.rd.rem + 128 * n * (a.rd.rate + 2 ^ 1 / 2 ^ 53) ≤ (D' / 2 / nch : Nat)) := by
  obtain ⟨⟨hA0, hAE, hx, hx0, hxE⟩, a', k1, k2⟩ := drift_loop_wav fp hfp g hB hNB a hw past junk hj hc' hset hrem0 hloop hmm0 hmm hadv nullOk hf
  obtain ⟨b', l1, l2⟩ := drift_wav fp hfp g' hB' hNB' b hw' hroom' past' junk' hj' hc' hset' (by rw [hrem]; exact hrem0)
    (fun h => by rw [if_pos h] at hq; rw [hq]; exact ⟨hq0, hqD⟩) hmm0' hmm' hadv' nullOk' hf'
  have hs : TVP.startFrame b.rd = q := hq
  have hrem1 : a.rd.rem < 1 := lt_of_abs_lt hset.frac
  have hr1 : a.rd.rate ≤ 1 := by exact_mod_cast hset.rateR
  rw [hrem, hrate, hs] at l2
  exact ⟨a', b', k1, l1, k2.alike l2 hw.some fun n hn t ht => told_drift hfp (U := unroll a.rd.loopStart a.rd.loopFinish) (v0 := firstFrame a.rd) hset.rate0 hr1 hrem0 hrem1 hset.flt
    (fun t => by unfold driftLoopPath; rw [(driftLoop_unroll hfp hAE hset.rate0 hslow hx hxE t).1]) hq0 hout hn ht⟩

/-- **C90** (any speed below normal, backwards): the frames in the order in which the loop meets them backwards from frame `s`; rounding must
treat both signs alike. -/
theorem C90_any_back_partial (fp : Fp) (hfp : Representable fp) (hsym : Symmetric fp) {g g' : Geo} (hB : g.B < 16384) (hB' : g'.B < 16384) (hNB : g.N * g.B ≤ 2 ^ 30) (hNB' : g'.N * g'.B ≤ 2 ^ 30)
    (a b : FileReader) {m m' : List Nat} {off off' nch D D' : Nat} (hw : WavFile m off nch D) (hw' : WavFile m' off' nch D') {q : Int} {s : Nat}
    (hout : ∀ (j ch : Nat), q ≤ j → j < D' / 2 / nch → ch < nch →
      dataSample m' (off' + 8) (j * nch + ch) = dataSample m (off + 8) ((unrollBack a.rd.loopStart (a.rd.loopFinish - nch) (-s + (j - q))).toNat * nch + ch))
    (past past' : Bool) (junk junk' : List Nat) (hj : junk.length = 36) (hj' : junk'.length = 36) (hc' : nch ≤ 32767) {mm mm' : Int}
    (hset : RepeatBackSettings fp a.rd 1) (hset' : ForwardSettings b.rd 1) (hrate : a.rd.rate = -b.rd.rate) (hslow : b.rd.rate ≤ 1 - 1 / 2 ^ 53)
    (hrem : b.rd.rem = -a.rd.rem) (hrem0 : a.rd.rem ≤ 0) (hq : (if b.rd.playStart = .arbitrary then b.rd.playbackStart else 0) = q) (hq0 : 0 ≤ q)
    (hqD : q ≤ (D' / 2 / nch : Nat)) (hroom' : off' + 8 < m'.length)
    (hP : StartsBackAt a.rd ((m.length : Int) / 2) ((off + 8) / 2 : Nat) a.rd.loopFinish nch ((off + 8) / 2 + s * nch : Nat))
    (hloop : GoodLoopBack g m ((off + 8) / 2 : Nat) nch a.rd.loopStart a.rd.loopFinish ((off + 8) / 2 + s * nch : Nat))
    (hmm0 : 0 ≤ mm) (hmm : 2 * mm + 5 ≤ g.N) (hadv : 128 * (nch * 2) + nch * nch ≤ mm * g.B)
    (hmm0' : 0 ≤ mm') (hmm' : 2 * mm' + 1 ≤ g'.N) (hadv' : 128 * (nch * 2) ≤ mm' * g'.B)
    (nullOk nullOk' : Bool) {fuel fuel' : Nat} (hf : g.N ≤ fuel + 2) (hf' : g'.N ≤ fuel' + 2) :
    ∃ a' b', a.playWav g (some ⟨m, 0, past⟩) junk = .ok (true, a') ∧ b.playWav g' (some ⟨m', 0, past'⟩) junk' = .ok (true, b') ∧
      SoundAlike fp g g' nullOk nullOk' (fuel + 2) (fuel' + 2) a' b' (fun n => q + -a.rd.rem + 128 * n * (b.rd.rate + 2 ^ 1 / 2 ^ 53) ≤ (D' / 2 / nch : Nat)) := by
  obtain ⟨⟨hA0, hAE, hρ, hx, hxA⟩, a', k1, k2⟩ := drift_loop_back_wav fp hfp g hB hNB a hw past junk hj hc' hset hrate hrem0 hP hloop hmm0 hmm hadv nullOk hf
  obtain ⟨b', l1, l2⟩ := drift_wav fp hfp g' hB' hNB' b hw' hroom' past' junk' hj' hc' hset' (by rw [hrem]; linarith)
    (fun h => by rw [if_pos h] at hq; rw [hq]; exact ⟨hq0, hqD⟩) hmm0' hmm' hadv' nullOk' hf'
  have hs : TVP.startFrame b.rd = q := hq
  have hrem1 : -1 < a.rd.rem := neg_lt_of_abs_lt hset.frac
  have hr1 : b.rd.rate ≤ 1 := by exact_mod_cast hset'.rateR
  rw [hrem, hs] at l2
  have e : -(((s : Nat) : ℚ) + a.rd.rem) = ((-s : Int) : ℚ) + -a.rd.rem := by push_cast; ring
  have hfx : Int.fract (((-s : Int) : ℚ) + -a.rd.rem) = -a.rd.rem := by
    rw [Int.fract_intCast_add, Int.fract_eq_self.2 ⟨by linarith, by linarith⟩]
  refine ⟨a', b', k1, l1, k2.alike l2 hw.some fun n hn t ht => told_drift hfp (U := unrollBack a.rd.loopStart (a.rd.loopFinish - nch)) (v0 := -s) hρ hr1 (by linarith) (by linarith)
    hset.flt.neg' (fun t => ?_) hq0 hout hn ht⟩
  unfold driftLoopBackPath
  rw [driftLoopBack_mirror hsym, Int.ceil_neg, unrollBack_eq, e,
    (driftLoop_unroll hfp (A := -(a.rd.loopFinish - nch)) (E := 1 - a.rd.loopStart) (by omega) hρ hslow (by rw [hfx]; exact hset.flt.neg')
      (by rw [← e, Int.floor_neg]; omega) t).1]

/-! ## Backwards and forwards -/

/-- **C89** (any speed).  Let the frames of the sound of `m'` be those of `m` in reverse.  Then `m`
played backwards from frame `s` sounds exactly like `m'` played forwards from the frame that corresponds to it, at the same speed and
with the opposite fraction left over; whatever storage the two are on, with whatever buffers; rounding must treat both signs alike. -/
theorem C89_any_partial (fp : Fp) (hfp : Representable fp) (hsym : Symmetric fp) {g g' : Geo} (hB : g.B < 16384) (hB' : g'.B < 16384) (hNB : g.N * g.B ≤ 2 ^ 30) (hNB' : g'.N * g'.B ≤ 2 ^ 30)
    (a b : FileReader) {m m' : List Nat} {off off' nch D : Nat} (hw : WavFile m off nch D) (hw' : WavFile m' off' nch D)
    (hrev : ∀ i j ch, i + j + 1 = D / 2 / nch → ch < nch → dataSample m' (off' + 8) (i * nch + ch) = dataSample m (off + 8) (j * nch + ch))
    (past past' : Bool) (junk junk' : List Nat) (hj : junk.length = 36) (hj' : junk'.length = 36) (hc' : nch ≤ 32767) {R mm mm' : Int}
    (hset : BackwardSettings fp a.rd R) (hset' : ForwardSettings b.rd R) (hrate : a.rd.rate = -b.rd.rate)
    (hrem : b.rd.rem = -a.rd.rem) (hrem0 : a.rd.rem ≤ 0) {s : Nat}
    (hP : StartsBackAt a.rd ((m.length : Int) / 2) ((off + 8) / 2 : Nat) (D / 2 / nch : Nat) nch ((off + 8) / 2 + s * nch : Nat))
    (hq : (s : Int) + (if b.rd.playStart = .arbitrary then b.rd.playbackStart else 0) = (D / 2 / nch : Nat) - 1)
    (hq0 : b.rd.playStart = .arbitrary → 0 ≤ b.rd.playbackStart)
    (hgood : GoodStart g m ((off + 8) / 2 : Nat) nch ((off + 8) / 2 + s * nch : Nat))
    (hmm0 : 0 ≤ mm) (hmm : 2 * mm + 1 ≤ g.N) (hadv : 128 * (nch * (R + 1)) ≤ mm * g.B)
    (hmm0' : 0 ≤ mm') (hmm' : 2 * mm' + 1 ≤ g'.N) (hadv' : 128 * (nch * (R + 1)) ≤ mm' * g'.B)
    (nullOk nullOk' : Bool) {fuel fuel' : Nat} (hf : g.N ≤ fuel + 2) (hf' : g'.N ≤ fuel' + 2) :
    ∃ a' b', a.playWav g (some ⟨m, 0, past⟩) junk = .ok (true, a') ∧ b.playWav g' (some ⟨m', 0, past'⟩) junk' = .ok (true, b') ∧
      SoundAlike fp g g' nullOk nullOk' (fuel + 2) (fuel' + 2) a' b' (fun _ => True) := by
  have hq1 : 0 ≤ (if b.rd.playStart = .arbitrary then b.rd.playbackStart else 0) := by
    split
    · rename_i h; exact hq0 h
    · exact le_refl _
  have hs : s < D / 2 / nch := by clear hP hgood; omega
  obtain ⟨a', k1, k2⟩ := drift_back_wav fp hfp g hB hNB a hw past junk hj hc' hset hrate hrem0 hs hP hgood hmm0 hmm hadv nullOk hf
  have hroom' : off' + 8 < m'.length := by
    have := hw'.inFile
    have hD : 0 < D := by
      rcases Nat.eq_zero_or_pos D with h | h
      · subst h; simp at hs
      · exact h
    omega
  obtain ⟨b', l1, l2⟩ := drift_wav fp hfp g' hB' hNB' b hw' hroom' past' junk' hj' hc' hset' (by rw [hrem]; linarith)
    (fun h => ⟨hq0 h, by rw [if_pos h] at hq; clear hP hgood; omega⟩) hmm0' hmm' hadv' nullOk' hf'
  have hqq : TVP.startFrame b.rd = (if b.rd.playStart = .arbitrary then b.rd.playbackStart else 0) := rfl
  rw [← hqq] at hq hq1
  generalize TVP.startFrame b.rd = q at *
  generalize hFF : D / 2 / nch = F at *
  have hrem1 : -1 < a.rd.rem := neg_lt_of_abs_lt hset.frac
  have hpos : ∀ t, ⌈driftBackAt fp ((s : ℚ) + a.rd.rem) b.rd.rate t⌉ = (F : Int) - 1 - ⌊driftAt fp ((q : ℚ) + b.rd.rem) b.rd.rate t⌋ := by
    intro t
    have e : -((s : ℚ) + a.rd.rem) = ((q : ℚ) + b.rd.rem) + ((-(F - 1) : Int) : ℚ) := by
      have : ((s : Int) : ℚ) + (q : ℚ) = ((F : Int) : ℚ) - 1 := by exact_mod_cast hq
      rw [hrem]; push_cast at this ⊢; linarith
    rw [driftBack_mirror hsym, e, drift_shift, Int.ceil_neg, Int.floor_add_intCast]
    ring
  have hlow : ∀ t, 0 ≤ ⌊driftAt fp ((q : ℚ) + b.rd.rem) b.rd.rate t⌋ := fun t =>
    drift_nonneg fp hfp hset'.rate0 (by rw [Int.fract_intCast_add, Int.fract_eq_self.2 ⟨by rw [hrem]; linarith, by rw [hrem]; linarith⟩]; exact hset'.flt)
      (add_nonneg (by exact_mod_cast hq1) (by rw [hrem]; linarith)) t
  refine ⟨a', b', k1, l1, k2.alike l2 hw.some fun _ _ t _ => ?_⟩
  have h1 := hpos t
  have h2 := hlow t
  unfold SameTold driftBackPath driftPath
  generalize ⌊driftAt fp ((q : ℚ) + b.rd.rem) b.rd.rate t⌋ = u at *
  rw [h1]
  by_cases h : u < F
  · rw [if_pos h, if_pos (by omega)]
    refine ⟨rfl, fun i j ch hi hjj hch => (hrev j i ch ?_ hch).symm⟩
    have hi' := Option.some.inj hi
    have hj' := Option.some.inj hjj
    clear hP hgood hrev
    omega
  · rw [if_neg h, if_neg (by omega)]
    exact ⟨rfl, fun i j ch hi => nomatch hi⟩

/-- Forwards at a tenth of the speed. -/
example : ∃ a' b', exTenth.playWav sdGeo (some ⟨exWav, 0, false⟩) (List.replicate 36 7) = .ok (true, a') ∧
    exTenth.playRaw ⟨9, 5, fun _ => []⟩ (some ⟨exRaw, 0, true⟩) 2 = .ok (true, b') ∧
    SoundAlike Fp.ieee sdGeo ⟨9, 5, fun _ => []⟩ true false (5 + 2) (5 + 2) a' b' (fun _ => True) :=
  C91_any_forward_partial Fp.ieee ieee_representable (by decide) (by decide) (by decide) (by decide) exTenth exWav_file exRaw_same (by decide) (by decide) false true
    (List.replicate 36 7) (by decide) (by decide) rfl (R := 1) (mm := 1) (mm' := 2) exTenth_settings (by norm_num [exTenth]) (by intro h; cases h)
    (by decide) (by decide) (by decide) (by decide) (by decide) (by decide) true false (by decide) (by decide)

/-- Backwards. -/
example : ∃ a' b', exMinusTenth.playWav sdGeo (some ⟨exWav, 0, false⟩) (List.replicate 36 7) = .ok (true, a') ∧
    exMinusTenth.playRaw ⟨9, 5, fun _ => []⟩ (some ⟨exRaw, 0, true⟩) 2 = .ok (true, b') ∧
    SoundAlike Fp.ieee sdGeo ⟨9, 5, fun _ => []⟩ true false (5 + 2) (5 + 2) a' b' (fun _ => True) :=
  C91_any_back_partial Fp.ieee ieee_representable (by decide) (by decide) (by decide) (by decide) exMinusTenth exWav_file exRaw_same false true
    (List.replicate 36 7) (by decide) (by decide) rfl (R := 1) (mm := 1) (mm' := 2) exMinusTenth_settings (by norm_num [exMinusTenth])
    (s := 1) (by decide) (by show ((_ : Nat) : Int) = _; decide) (by show ((_ : Nat) : Int) = _; decide)
    ⟨by decide, by decide, by decide, by decide⟩ ⟨by decide, by decide, by decide, by decide⟩
    (by decide) (by decide) (by decide) (by decide) (by decide) (by decide) true false (by decide) (by decide)

/-- Frames 10 to 13 again and again. -/
example : ∃ a' b', exFewTenth.playWav exFineGeo (some ⟨exCount, 0, false⟩) (List.replicate 36 7) = .ok (true, a') ∧
    exFewTenth.playRaw exFineGeo (some ⟨exCountRaw, 0, true⟩) 2 = .ok (true, b') ∧
    SoundAlike Fp.ieee exFineGeo exFineGeo true false (5 + 2) (5 + 2) a' b' (fun _ => True) :=
  C91_any_loop_partial Fp.ieee ieee_representable (by decide) (by decide) (by decide) (by decide) exFewTenth exCount_file exCountRaw_same
    false true (List.replicate 36 7) (by decide) (by decide) rfl (mm := 1) (mm' := 1) exFewTenth_settings (by norm_num [exFewTenth])
    ⟨by decide, by decide, by decide +kernel, by decide, by decide, Or.inr ⟨by decide, by decide +kernel⟩⟩
    ⟨by decide, by decide, by rw [exCountRaw_length]; decide, by decide, by decide, Or.inr ⟨by decide, by rw [exCountRaw_length]; decide⟩⟩
    (by decide) (by decide) (by decide) (by decide) (by decide) (by decide) true false (fuel := 5) (fuel' := 5) (by decide) (by decide)

/-- Frames 3100 to 3103 again and again backwards. -/
example : ∃ a' b', exFewBackTenth.playWav exFinerGeo (some ⟨exCountMore, 0, false⟩) (List.replicate 36 7) = .ok (true, a') ∧
    exFewBackTenth.playRaw exFinerGeo (some ⟨exCountMoreRaw, 0, true⟩) 2 = .ok (true, b') ∧
    SoundAlike Fp.ieee exFinerGeo exFinerGeo true false (5 + 2) (5 + 2) a' b' (fun _ => True) :=
  C91_any_loop_back_partial Fp.ieee ieee_representable (by decide) (by decide) (by decide) (by decide) exFewBackTenth exCountMore_file exCountMoreRaw_same
    false true (List.replicate 36 7) (by decide) (by decide) rfl (mm := 1) (mm' := 1) exFewBackTenth_settings (by norm_num [exFewBackTenth])
    (s := 3101) (exFewBack_start ((exCountMore.length : Int) / 2)) (exFewBack_start_raw ((exCountMoreRaw.length : Int) / 2)) exFewBack_loop exFewBack_loop_raw
    (by decide) (by decide) (by decide) (by decide) (by decide) (by decide) true false (fuel := 5) (fuel' := 5) (by decide) (by decide)

/-- The loop at a tenth of the speed sounds like what is written out at a tenth of the speed, for thirty updates. -/
example : ∃ a' b', exFewTenth.playWav exFineGeo (some ⟨exCount, 0, false⟩) (List.replicate 36 7) = .ok (true, a') ∧
    exTenth.playWav sdGeo (some ⟨exCountLoop, 0, true⟩) (List.replicate 36 0) = .ok (true, b') ∧
    SoundAlike Fp.ieee exFineGeo sdGeo true false (5 + 2) (5 + 2) a' b' (fun n => n ≤ 30) := by
  obtain ⟨a', b', h1, h2, h3⟩ := C90_any_partial Fp.ieee ieee_representable (g := exFineGeo) (g' := sdGeo) (by decide) (by decide) (by decide) (by decide) exFewTenth exTenth
    exCount_file exCountLoop_file (q := 0) (fun j ch _ h1 h2 => exCountLoop_written j ch h1 h2)
    false true (List.replicate 36 7) (List.replicate 36 0) (by decide) (by decide) (by decide) (mm := 1) (mm' := 1) exFewTenth_settings exTenth_settings
    (by norm_num [exFewTenth, tenth]) rfl rfl (by norm_num [exFewTenth]) (by decide) (by decide) (by decide) (by decide +kernel)
    ⟨by decide, by decide, by decide +kernel, by decide, by decide, Or.inr ⟨by decide, by decide +kernel⟩⟩ (by decide) (by decide) (by decide) (by decide) (by decide) (by decide)
    true false (fuel := 5) (fuel' := 5) (by decide) (by decide)
  refine ⟨a', b', h1, h2, fun als hl => h3 als ?_⟩
  have : (als.length : ℚ) ≤ 30 := by exact_mod_cast hl
  norm_num [exFewTenth, tenth]
  linarith

/-- Backwards. -/
example : ∃ a' b', exFewBackTenth.playWav exFinerGeo (some ⟨exCountMore, 0, false⟩) (List.replicate 36 7) = .ok (true, a') ∧
    exTenth.playWav sdGeo (some ⟨exCountBack, 0, true⟩) (List.replicate 36 0) = .ok (true, b') ∧
    SoundAlike Fp.ieee exFinerGeo sdGeo true false (5 + 2) (5 + 2) a' b' (fun n => n ≤ 30) := by
  obtain ⟨a', b', h1, h2, h3⟩ := C90_any_back_partial Fp.ieee ieee_representable ieee_symmetric (g := exFinerGeo) (g' := sdGeo) (by decide) (by decide) (by decide) (by decide)
    exFewBackTenth exTenth exCountMore_file exCountBack_file
    (q := 0) (s := 3101) (fun j ch _ h1 h2 => exCountBack_written j ch h1 h2)
    false true (List.replicate 36 7) (List.replicate 36 0) (by decide) (by decide) (by decide) (mm := 1) (mm' := 1) exFewBackTenth_settings exTenth_settings
    rfl (by norm_num [exTenth, tenth]) (by norm_num [exFewBackTenth, exTenth]) (by norm_num [exFewBackTenth]) (by decide) (by decide) (by decide) (by decide +kernel)
    (exFewBack_start ((exCountMore.length : Int) / 2)) exFewBack_loop (by decide) (by decide) (by decide)
    (by decide) (by decide) (by decide) true false (fuel := 5) (fuel' := 5) (by decide) (by decide)
  refine ⟨a', b', h1, h2, fun als hl => h3 als ?_⟩
  have : (als.length : ℚ) ≤ 30 := by exact_mod_cast hl
  norm_num [exFewBackTenth, exTenth, tenth]
  linarith

/-- A file backwards at a tenth of the speed from one kind of storage, and its reverse forwards at a tenth of the speed from another. -/
example : ∃ a' b', exMinusTenth.playWav sdGeo (some ⟨exWav, 0, false⟩) (List.replicate 36 7) = .ok (true, a') ∧
    exTenth.playWav ⟨9, 5, fun _ => []⟩ (some ⟨exVaw, 0, true⟩) (List.replicate 36 0) = .ok (true, b') ∧
    SoundAlike Fp.ieee sdGeo ⟨9, 5, fun _ => []⟩ true false (5 + 2) (5 + 2) a' b' (fun _ => True) :=
  C89_any_partial Fp.ieee ieee_representable ieee_symmetric (by decide) (by decide) (by decide) (by decide) exMinusTenth exTenth exWav_file exVaw_file exVaw_reversed false true
    (List.replicate 36 7) (List.replicate 36 0) (by decide) (by decide) (by decide) (R := 1) (mm := 1) (mm' := 2) exMinusTenth_settings exTenth_settings
    rfl (by norm_num [exMinusTenth, exTenth]) (by norm_num [exMinusTenth]) (s := 1) (by show ((_ : Nat) : Int) = _; decide) (by decide)
    (by intro h; cases h) ⟨by decide, by decide, by decide, by decide⟩ (by decide) (by decide) (by decide) (by decide) (by decide) (by decide) true false (by decide) (by decide)

end TVP
