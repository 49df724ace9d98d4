import Verif.Props.Swing
import Verif.Props.MirrorPing

/-!
# Property C91: a raw file and a WAV file with the same samples

What is heard of raw files (C59, C84), and that it is what is heard of a WAV file with these samples.
-/

namespace TVP
open Spec

theorem playFinish_header {g : Geo} {r : Rd} {f : Dev} {a : FileReader} (h : playFinish g r f = .ok (true, a)) : a.rd.header = r.header := by
  obtain ⟨playing, fileSize, header, rate, rem, loopType, playStart, pos1, pos2, crossfade, dual, cfDur, cfOn, playbackStart, loopStart, loopFinish, fileSamples, nch, psram, interp, pts⟩ := r
  unfold playFinish at h
  simp only at h
  split at h
  · cases h
  · split at h
    · cases h
    · injection h with h
      injection h with _ h
      subst h
      cases loopType <;> rfl

theorem playRaw_opens {g : Geo} {a a' : FileReader} {m : List Nat} (hm : m.length < 2 ^ 31) {past : Bool} {nch : Nat} (hc : 1 ≤ nch) (hc' : nch ≤ 32767)
    (h : a.playRaw g (some ⟨m, 0, past⟩) nch = .ok (true, a')) : Opens2 a.rd a' ∧ a'.rd.header = a.rd.header := by
  obtain ⟨r1, e1, e2, e3, e4, e5⟩ := raw_prep g a hm past hc hc'
  rw [e1] at h
  have k := playFinish_opens2 h
  exact ⟨⟨k.1.trans e2.dual, k.2.1.trans e2.interp, k.2.2.1.trans e2.loop, k.2.2.2.1.trans e2.start, k.2.2.2.2.1, fun hl => k.2.2.2.2.2 (e2.loop.trans hl)⟩,
    (playFinish_header h).trans e4⟩

/-- A frame of a raw file lies in the file. -/
theorem raw_frame {m : List Nat} {nch i : Nat} (hc : 1 ≤ nch) (h : 0 + 2 * ((i + 1) * nch) ≤ m.length) : i < m.length / 2 / nch :=
  (Nat.le_div_iff_mul_le (by omega)).2 (by
    have h2 : (i + 1) * nch ≤ m.length / 2 := by omega
    exact h2)

/-- **C59** (raw files).  What is heard of a raw file, forwards. -/
theorem C59_raw (fp : Fp) (hfp : Representable fp) (g : Geo) (hB : g.B < 16384) (hNB : g.N * g.B ≤ 2 ^ 30) (a : FileReader) {m : List Nat}
    (hb : IsBytes m) (h0 : 0 < m.length) (hm : m.length < 2 ^ 31) (past : Bool) {nch : Nat} (hc : 1 ≤ nch) (hc' : nch ≤ 32767) (hhead : a.rd.header = 0)
    {R mm : Int} (hset : ForwardSettings a.rd R) {p : Nat} (hgrid : GridRate p a.rd.rate) (hrem : OnGrid p a.rd.rem) (hrem0 : 0 ≤ a.rd.rem)
    (hstart : a.rd.playStart = .arbitrary → 0 ≤ a.rd.playbackStart ∧ a.rd.playbackStart ≤ (m.length / 2 / nch : Nat))
    (hmm0 : 0 ≤ mm) (hmm : 2 * mm + 1 ≤ g.N) (hadv : 128 * (nch * (R + 1)) ≤ mm * g.B) (nullOk : Bool) {fuel : Nat} (hf : g.N ≤ fuel + 2) :
    ∃ a', a.playRaw g (some ⟨m, 0, past⟩) nch = .ok (true, a') ∧ Sends fp g nullOk (fuel + 2) a' (fun i ch => dataSample m 0 (i * nch + ch)) nch
      (forthPath (m.length / 2 / nch : Nat) ((if a.rd.playStart = .arbitrary then a.rd.playbackStart else 0) + a.rd.rem) a.rd.rate) := by
  obtain ⟨a', k1, k2, k3, k5, k8, k6, k7, k10⟩ := C17_raw fp hfp g hB hNB a hb h0 hm past hc hc' hset hhead hstart hmm0 hmm hadv nullOk (fuel := fuel + 1) (by omega)
  obtain ⟨hop, k4⟩ := playRaw_opens hm hc hc' k1
  rw [hhead] at k4
  refine ⟨a', k1, fun als => ?_⟩
  clear k1
  have hR : 0 ≤ R := by
    have : (0 : ℚ) ≤ R := le_trans hset.rate0 hset.rateR
    exact_mod_cast this
  have hNB' : (g.N : Int) * g.B ≤ 2 ^ 30 := by exact_mod_cast hNB
  have hB0 : (0 : Int) < g.B := by exact_mod_cast g.B_pos
  have h1 : mm * g.B ≤ g.N * g.B := mul_le_mul_of_nonneg_right (by omega) (le_of_lt hB0)
  have h2 : R + 1 ≤ nch * (R + 1) := le_mul_of_one_le_left (by omega) (by omega)
  have hmul : ((m.length / 2 / nch : Nat) : Int) * nch ≤ (m.length / 2 : Nat) := by exact_mod_cast Nat.div_mul_le_self _ _
  set F : Int := ((m.length / 2 / nch : Nat) : Int) with hF
  have hF0 : 0 ≤ F := by rw [hF]; exact Int.natCast_nonneg _
  have h3 : 0 + nch * (F + R + 1) = F * nch + nch * (R + 1) := by ring
  have hlen : ((0 : Nat) : Int) + F * nch ≤ m.length / 2 := by omega
  set s : Int := if a.rd.playStart = .arbitrary then a.rd.playbackStart else 0 with hs
  have hs' : startFrame a.rd = s := rfl
  have hs0 : 0 ≤ s ∧ s ≤ F := by
    rw [hs]; split
    · rename_i e; exact hstart e
    · exact ⟨le_refl _, hF0⟩
  have hrem1 : a.rd.rem < 1 := lt_of_abs_lt hset.frac
  have hfl : ⌊(s : ℚ) + a.rd.rem⌋ = s := by
    rw [Int.floor_eq_iff]; constructor <;> linarith
  have hx0 : 0 ≤ (s : ℚ) + a.rd.rem := add_nonneg (by exact_mod_cast hs0.1) hrem0
  have hfwd : Fwd a'.rd p R ((s : ℚ) + a.rd.rem) := by
    refine ⟨hop.plain hset.plain k3 hc, hop.2.2.1.trans hset.loop, by rw [k6]; exact hset.rate0, by rw [k6]; exact hgrid, ?_, hx0, by rw [hfl, k8, k4, k3, hs', zero_add],
      by rw [hfl, k7]; ring, by rw [k4], by rw [k5]; exact hF0, by rw [k6]; exact hset.rateR, by rw [k4, k3, k5, h3]; omega, by rw [hfl, k5]; omega⟩
    exact OnGrid.add (OnGrid.int p s) hrem
  have hso : Sounding (samplesOf m) 0 nch F p R ((s : ℚ) + a.rd.rem) a.rd.rate (some 0) ⟨a'.rd, some (samplesOf m)⟩ := by
    refine ⟨k2, k3, fun k hk => ?_⟩
    cases hk
    exact ⟨by simpa using hfwd, rfl, k4, k5, k6⟩
  have hsl : ((samplesOf m).length : Int) = (m.length : Int) / 2 := by unfold samplesOf; simp
  obtain ⟨b', j1, j2⟩ := Sounding.ticks (fp := fp) hc hset.rate0 hx0 (by rw [hsl]; exact hlen) fuel als hso
  have hval : ∀ i ch : Nat, (i : Int) < F → ch < nch → material (samplesOf m) 0 nch i ch = dataSample m 0 (i * nch + ch) := by
    intro i ch hi hch
    have hle : ((i : Int) + 1) * nch ≤ F * nch := mul_le_mul_of_nonneg_right (by omega) (by omega)
    rw [add_mul, one_mul] at hle
    have hcast : ((i * nch : Nat) : Int) = (i : Int) * nch := by push_cast; rfl
    unfold material
    rw [samplesOf_getD (by omega), add_assoc, ← fileSample_data m (start := 0) rfl]
  rw [soundPlay_congr hx0 hset.rate0 hc hval, soundPlay_path] at j1 j2
  obtain ⟨fxs, a'', b'', l1, l2, l3, l4⟩ := k10 als
  rw [j1] at l2
  simp only [Except.ok.injEq, Prod.mk.injEq] at l2
  obtain ⟨l2a, l2b⟩ := l2
  exact ⟨a'', by rw [l1, ← l2a], by rw [l3, ← l2b]; exact j2.playing, l4⟩

/-- **C84** (raw files, backwards): from frame `s` down to the first. -/
theorem C84_back_raw_partial (fp : Fp) (hfp : Representable fp) (g : Geo) (hB : g.B < 16384) (hNB : g.N * g.B ≤ 2 ^ 30) (a : FileReader) {m : List Nat}
    (hb : IsBytes m) (hm : m.length < 2 ^ 31) (past : Bool) {nch : Nat} (hc : 1 ≤ nch) (hc' : nch ≤ 32767) (hhead : a.rd.header = 0)
    {R mm : Int} (hset : BackwardSettings fp a.rd R) {p : Nat} {ρ : ℚ} (hrate : a.rd.rate = -ρ) (hgrid : GridRate p ρ) (hrem : OnGrid p a.rd.rem)
    (hrem0 : a.rd.rem ≤ 0) {s : Nat} (hs : s < m.length / 2 / nch)
    (hP : StartsBackAt a.rd ((m.length : Int) / 2) 0 (m.length / 2 / nch : Nat) nch (s * nch : Nat)) (hgood : GoodStart g m 0 nch (s * nch : Nat))
    (hmm0 : 0 ≤ mm) (hmm : 2 * mm + 1 ≤ g.N) (hadv : 128 * (nch * (R + 1)) ≤ mm * g.B) (nullOk : Bool) {fuel : Nat} (hf : g.N ≤ fuel + 2) :
    ∃ a', a.playRaw g (some ⟨m, 0, past⟩) nch = .ok (true, a') ∧
      Sends fp g nullOk (fuel + 2) a' (fun i ch => dataSample m 0 (i * nch + ch)) nch (backPath (s + a.rd.rem) ρ 0) ∧
      ∀ t i, backPath (s + a.rd.rem) ρ 0 t = some i → i < m.length / 2 / nch := by
  obtain ⟨a', k0, k1, k2, k4, k5, k6, k7, k8⟩ := C18_raw_partial fp hfp g hB hNB a hb hm past hc hc' hset hhead hP hgood hmm0 hmm hadv nullOk (fuel := fuel + 1) (by omega)
  obtain ⟨hop, k3⟩ := playRaw_opens hm hc hc' k0
  have hdiv := Nat.div_mul_le_self (m.length / 2) nch
  obtain ⟨-, l2, l3, l4⟩ := back_live (start := 0) (F := m.length / 2 / nch) hNB hm hc (by omega) hset hrate hgrid hrem hrem0 hs hmm hadv hop k2 (k3.trans hhead) k4
    (by rw [k5]; simp) k6 k7
  exact ⟨a', k0, sends_of k8 l3 hc rfl k1 k2 (k3.trans hhead) l2 l4, fun t i hi => raw_frame hc (l4 t i hi)⟩

/-- **C84** (raw files, repeated forwards). -/
theorem C84_loop_raw_partial (fp : Fp) (hfp : Representable fp) (g : Geo) (hB : g.B < 16384) (hNB : g.N * g.B ≤ 2 ^ 30) (a : FileReader) {m : List Nat}
    (hb : IsBytes m) (hm : m.length < 2 ^ 31) (past : Bool) {nch : Nat} (hc : 1 ≤ nch) (hc' : nch ≤ 32767) (hhead : a.rd.header = 0)
    {R mm : Int} (hset : RepeatSettings a.rd R) {p : Nat} (hgrid : GridRate p a.rd.rate) (hrem : OnGrid p a.rd.rem) (hrem0 : 0 ≤ a.rd.rem)
    (hloop : GoodLoop g m 0 nch a.rd.loopStart a.rd.loopFinish (firstFrame a.rd))
    (hmm0 : 0 ≤ mm) (hmm : 2 * mm + 5 ≤ g.N) (hadv : 128 * (nch * (R + 1)) ≤ mm * g.B) (nullOk : Bool) {fuel : Nat} (hf : g.N ≤ fuel + 2) :
    ∃ a', a.playRaw g (some ⟨m, 0, past⟩) nch = .ok (true, a') ∧
      Sends fp g nullOk (fuel + 2) a' (fun i ch => dataSample m 0 (i * nch + ch)) nch
        (loopPath a.rd.loopStart a.rd.loopFinish (firstFrame a.rd + a.rd.rem) a.rd.rate) ∧
      ∀ t i, loopPath a.rd.loopStart a.rd.loopFinish (firstFrame a.rd + a.rd.rem) a.rd.rate t = some i → i < m.length / 2 / nch := by
  obtain ⟨a', k0, k1, k2, k3, k4, k5, k6, k7, k8, k9, k10⟩ := C60_raw_partial fp hfp g hB hNB a hb hm past hc hc' hset hhead hloop hmm0 hmm hadv nullOk hf
  obtain ⟨hop, -⟩ := playRaw_opens hm hc hc' k0
  obtain ⟨l1, l2, l3⟩ := loop_live (fp := fp) (start := 0) hNB hm rfl hc hset hgrid hrem hrem0 hloop hmm hadv hop k2 k3 k4 k5 k6 (by rw [k7]; simp) k8 k9
  exact ⟨a', k0, sends_of k10 l2 hc rfl k1 k2 k3 l1 l3, fun t i hi => raw_frame hc (l3 t i hi)⟩

/-- **C84** (raw files, repeated backwards). -/
theorem C84_loop_back_raw_partial (fp : Fp) (hfp : Representable fp) (g : Geo) (hB : g.B < 16384) (hNB : g.N * g.B ≤ 2 ^ 30) (a : FileReader) {m : List Nat}
    (hb : IsBytes m) (hm : m.length < 2 ^ 31) (past : Bool) {nch : Nat} (hc : 1 ≤ nch) (hc' : nch ≤ 32767) (hhead : a.rd.header = 0)
    {R mm : Int} (hset : RepeatBackSettings fp a.rd R) {p : Nat} {ρ : ℚ} (hrate : a.rd.rate = -ρ) (hgrid : GridRate p ρ)
    (hrem : OnGrid p a.rd.rem) (hrem0 : a.rd.rem ≤ 0) {s : Nat}
    (hP : StartsBackAt a.rd ((m.length : Int) / 2) 0 a.rd.loopFinish nch (s * nch : Nat))
    (hloop : GoodLoopBack g m 0 nch a.rd.loopStart a.rd.loopFinish (s * nch : Nat))
    (hmm0 : 0 ≤ mm) (hmm : 2 * mm + 5 ≤ g.N) (hadv : 128 * (nch * (R + 1)) + nch * nch ≤ mm * g.B) (nullOk : Bool) {fuel : Nat} (hf : g.N ≤ fuel + 2) :
    ∃ a', a.playRaw g (some ⟨m, 0, past⟩) nch = .ok (true, a') ∧
      Sends fp g nullOk (fuel + 2) a' (fun i ch => dataSample m 0 (i * nch + ch)) nch (loopBackPath a.rd.loopStart a.rd.loopFinish nch (s + a.rd.rem) ρ) ∧
      ∀ t i, loopBackPath a.rd.loopStart a.rd.loopFinish nch (s + a.rd.rem) ρ t = some i → i < m.length / 2 / nch := by
  obtain ⟨a', k0, k1, k4, k2, k3, k5, k6, k7, k8, k9, k10⟩ := C60_back_raw_partial fp hfp g hB hNB a hb hm past hc hc' hset hhead hP hloop hmm0 hmm hadv nullOk hf
  obtain ⟨hop, -⟩ := playRaw_opens hm hc hc' k0
  obtain ⟨M, -, -, l3, l4, l5⟩ := loop_back_live (start := 0) hNB hm rfl hc hset hrate hgrid hrem hrem0 (by simpa using hloop) hmm hadv hop k2 k3 k4 k5 k6
    (by rw [k7]; simp) k8 k9
  exact ⟨a', k0, sends_of k10 l4 hc rfl k1 k2 k3 l3 l5, fun t i hi => raw_frame hc (l5 t i hi)⟩

/-- **C84** (raw files, to and fro). -/
theorem C84_swing_raw_partial (fp : Fp) (hfp : Representable fp) (g : Geo) (hB : g.B < 16384) (hNB : g.N * g.B ≤ 2 ^ 30) (a : FileReader) {m : List Nat}
    (hb : IsBytes m) (hm : m.length < 2 ^ 31) (past : Bool) {nch : Nat} (hc : 1 ≤ nch) (hc' : nch ≤ 32767) (hhead : a.rd.header = 0)
    {R : Int} (hset : PingSettings fp a.rd R) {p : Nat} (hgrid : GridRate p |a.rd.rate|) (hrem : OnGrid p a.rd.rem)
    (hsign : 0 ≤ a.rd.rem * a.rd.rate) (hwhole : a.rd.playStart = .sample → a.rd.loopStart = 0) {q : Int}
    (hP : StartsPingAt a.rd ((m.length : Int) / 2) 0 nch (q * nch)) (hin : a.rd.loopStart ≤ q) (hin' : a.rd.rate < 0 → q + nch ≤ a.rd.loopFinish)
    (hloop : GoodPing g m (0 ≤ a.rd.rate) 0 nch a.rd.loopStart a.rd.loopFinish (a.rd.loopStart * nch) R (q * nch))
    (nullOk : Bool) {fuel : Nat} (hf : g.N ≤ fuel + 2) :
    ∃ a', a.playRaw g (some ⟨m, 0, past⟩) nch = .ok (true, a') ∧
      Sends fp g nullOk (fuel + 2) a' (fun i ch => dataSample m 0 (i * nch + ch)) nch
        (swingPath a.rd.loopStart a.rd.loopFinish nch ⟨q + a.rd.rem, decide (0 < a.rd.rate)⟩ |a.rd.rate|) ∧
      ∀ t i, swingPath a.rd.loopStart a.rd.loopFinish nch ⟨q + a.rd.rem, decide (0 < a.rd.rate)⟩ |a.rd.rate| t = some i → i < m.length / 2 / nch := by
  obtain ⟨a', k0, k1, k4, k2, k3, k5, k6, k7, k8, k9, k10⟩ := C71_raw_partial fp hfp g hB hNB a hb hm past hc hc' hset hhead hP (T := a.rd.loopStart * nch) (by
      unfold TurnsBelowAt
      split
      · rename_i e; rw [hwhole e]; ring
      · ring) hloop nullOk hf
  obtain ⟨hop, -⟩ := playRaw_opens hm hc hc' k0
  refine ⟨a', k0, swing_live (start := 0) hm rfl hc hc' hset hgrid hrem hsign hwhole hin hin' (by simpa using hloop) hop k1 k4 k2 k3 k5 k6 (by rw [k7]; simp) k8 k9 k10, ?_⟩
  intro t i hi
  have hr0 : a.rd.rate ≠ 0 := fun e => hset.rateF (by rw [e]; exact fp.f.exact_zero)
  have hn0 : (0 : Int) < nch := by exact_mod_cast hc
  have hqE : q < a.rd.loopFinish := by
    rcases lt_or_gt_of_ne hr0 with h | h
    · have := hin' h; omega
    · by_contra hcc
      have h2 := (hloop.upward (le_of_lt h)).1
      have := mul_le_mul_of_nonneg_right (not_lt.1 hcc) (le_of_lt hn0)
      omega
  have h1 := swingAt_lt (v := |a.rd.rate|) hc hloop.AZ (by rw [swing_start hr0 hset.frac hsign hin hin']; exact hqE) t
  unfold swingPath at hi
  have hi' := Option.some.inj hi
  have hA0 := hloop.A0
  have hAZ := hloop.AZ
  have hfile := hloop.file
  have h3 : (i : Int) + 1 ≤ a.rd.loopFinish := by clear hloop; omega
  have h4 := mul_le_mul_of_nonneg_right h3 (le_of_lt hn0)
  have hcast : (((i + 1) * nch : Nat) : Int) = ((i : Int) + 1) * nch := by push_cast; rfl
  exact raw_frame hc (by clear hloop; omega)

/-! ## The same samples in a raw file and in a WAV file -/

/-- The raw file `m'` and the data chunk at `off` of `m`, of `D` bytes, have the same frames. -/
structure SameFrames (m : List Nat) (off nch D : Nat) (m' : List Nat) : Prop where
  bytes : IsBytes m'
  small : m'.length < 2 ^ 31
  number : m'.length / 2 / nch = D / 2 / nch
  same : ∀ i ch : Nat, i < D / 2 / nch → ch < nch → dataSample m (off + 8) (i * nch + ch) = dataSample m' 0 (i * nch + ch)

theorem SameFrames.alike {fp : Fp} {g g' : Geo} {nullOk nullOk' : Bool} {fuel fuel' : Nat} {a b : FileReader} {m m' : List Nat} {off nch D : Nat} (h : SameFrames m off nch D m')
    (hc : 1 ≤ nch) {p : Nat → Option Nat} (ha : Sends fp g nullOk fuel a (fun i ch => dataSample m (off + 8) (i * nch + ch)) nch p)
    (hb : Sends fp g' nullOk' fuel' b (fun i ch => dataSample m' 0 (i * nch + ch)) nch p) (hin : ∀ t i, p t = some i → i < m'.length / 2 / nch) :
    SoundAlike fp g g' nullOk nullOk' fuel fuel' a b (fun _ => True) :=
  ha.alike hb hc fun _ _ t _ => ⟨rfl, fun i j ch hi hj hch => by
    rw [hi] at hj
    rw [← Option.some.inj hj]
    exact h.same i ch (by rw [← h.number]; exact hin t i hi) hch⟩

/-- **C91** (forwards).  A raw file sounds exactly like a WAV file with its samples, from the first block to the end. -/
theorem C91_forward_partial (fp : Fp) (hfp : Representable fp) {g g' : Geo} (hB : g.B < 16384) (hB' : g'.B < 16384) (hNB : g.N * g.B ≤ 2 ^ 30) (hNB' : g'.N * g'.B ≤ 2 ^ 30)
    (a : FileReader) {m m' : List Nat} {off nch D : Nat} (hw : WavFile m off nch D) (hw' : SameFrames m off nch D m') (hD : off + 8 < m.length) (h0 : 0 < m'.length)
    (past past' : Bool) (junk : List Nat) (hj : junk.length = 36) (hc' : nch ≤ 32767) (hhead : a.rd.header = 0)
    {R mm mm' : Int} (hset : ForwardSettings a.rd R) {p : Nat} (hgrid : GridRate p a.rd.rate) (hrem : OnGrid p a.rd.rem) (hrem0 : 0 ≤ a.rd.rem)
    (hstart : a.rd.playStart = .arbitrary → 0 ≤ a.rd.playbackStart ∧ a.rd.playbackStart ≤ (D / 2 / nch : Nat))
    (hmm0 : 0 ≤ mm) (hmm : 2 * mm + 1 ≤ g.N) (hadv : 128 * (nch * (R + 1)) ≤ mm * g.B)
    (hmm0' : 0 ≤ mm') (hmm' : 2 * mm' + 1 ≤ g'.N) (hadv' : 128 * (nch * (R + 1)) ≤ mm' * g'.B)
    (nullOk nullOk' : Bool) {fuel fuel' : Nat} (hf : g.N ≤ fuel + 2) (hf' : g'.N ≤ fuel' + 2) :
    ∃ a' b', a.playWav g (some ⟨m, 0, past⟩) junk = .ok (true, a') ∧ a.playRaw g' (some ⟨m', 0, past'⟩) nch = .ok (true, b') ∧
      SoundAlike fp g g' nullOk nullOk' (fuel + 2) (fuel' + 2) a' b' (fun _ => True) := by
  obtain ⟨a', k1, k2⟩ := forth_sends fp hfp g hB hNB a hw past junk hj hc' hD hset hgrid hrem hrem0 hstart hmm0 hmm hadv nullOk hf
  obtain ⟨b', l1, l2⟩ := C59_raw fp hfp g' hB' hNB' a hw'.bytes h0 hw'.small past' hw.some hc' hhead hset hgrid hrem hrem0 (by rw [hw'.number]; exact hstart) hmm0' hmm' hadv' nullOk' hf'
  rw [← hw'.number] at k2
  refine ⟨a', b', k1, l1, hw'.alike hw.some k2 l2 fun t i hi => ?_⟩
  have hs0 : 0 ≤ (if a.rd.playStart = .arbitrary then a.rd.playbackStart else 0) := by
    split
    · rename_i e; exact (hstart e).1
    · exact le_refl _
  revert hs0 hi
  generalize (if a.rd.playStart = .arbitrary then a.rd.playbackStart else 0) = s
  intro hi hs0
  have hfl := Int.floor_nonneg.2 (show (0 : ℚ) ≤ (s : ℚ) + a.rd.rem + t * a.rd.rate from
    add_nonneg (add_nonneg (by exact_mod_cast hs0) hrem0) (mul_nonneg (by positivity) hset.rate0))
  unfold forthPath at hi
  split at hi
  · have := Option.some.inj hi
    clear hadv hadv' hw hw'; omega
  · cases hi

/-- **C91** (backwards). -/
theorem C91_back_partial (fp : Fp) (hfp : Representable fp) {g g' : Geo} (hB : g.B < 16384) (hB' : g'.B < 16384) (hNB : g.N * g.B ≤ 2 ^ 30) (hNB' : g'.N * g'.B ≤ 2 ^ 30)
    (a : FileReader) {m m' : List Nat} {off nch D : Nat} (hw : WavFile m off nch D) (hw' : SameFrames m off nch D m')
    (past past' : Bool) (junk : List Nat) (hj : junk.length = 36) (hc' : nch ≤ 32767) (hhead : a.rd.header = 0)
    {R mm mm' : Int} (hset : BackwardSettings fp a.rd R) {p : Nat} {ρ : ℚ} (hrate : a.rd.rate = -ρ) (hgrid : GridRate p ρ) (hrem : OnGrid p a.rd.rem) (hrem0 : a.rd.rem ≤ 0)
    {s : Nat} (hs : s < D / 2 / nch)
    (hP : StartsBackAt a.rd ((m.length : Int) / 2) ((off + 8) / 2 : Nat) (D / 2 / nch : Nat) nch ((off + 8) / 2 + s * nch : Nat))
    (hP' : StartsBackAt a.rd ((m'.length : Int) / 2) 0 (D / 2 / nch : Nat) nch (s * nch : Nat))
    (hgood : GoodStart g m ((off + 8) / 2 : Nat) nch ((off + 8) / 2 + s * nch : Nat)) (hgood' : GoodStart g' m' 0 nch (s * nch : Nat))
    (hmm0 : 0 ≤ mm) (hmm : 2 * mm + 1 ≤ g.N) (hadv : 128 * (nch * (R + 1)) ≤ mm * g.B)
    (hmm0' : 0 ≤ mm') (hmm' : 2 * mm' + 1 ≤ g'.N) (hadv' : 128 * (nch * (R + 1)) ≤ mm' * g'.B)
    (nullOk nullOk' : Bool) {fuel fuel' : Nat} (hf : g.N ≤ fuel + 2) (hf' : g'.N ≤ fuel' + 2) :
    ∃ a' b', a.playWav g (some ⟨m, 0, past⟩) junk = .ok (true, a') ∧ a.playRaw g' (some ⟨m', 0, past'⟩) nch = .ok (true, b') ∧
      SoundAlike fp g g' nullOk nullOk' (fuel + 2) (fuel' + 2) a' b' (fun _ => True) := by
  obtain ⟨a', k1, k2⟩ := C84_back_partial fp hfp g hB hNB a hw.bytes hw.small past junk hj hw.good hw.depth hw.data hw.even hw.chans hw.some hc' hw.len hw.inFile hset hrate hgrid
    hrem hrem0 hs hP hgood hmm0 hmm hadv nullOk hf
  obtain ⟨b', l1, l2, l3⟩ := C84_back_raw_partial fp hfp g' hB' hNB' a hw'.bytes hw'.small past' hw.some hc' hhead hset hrate hgrid hrem hrem0 (s := s) (by rw [hw'.number]; exact hs)
    (by rw [hw'.number]; exact hP') hgood' hmm0' hmm' hadv' nullOk' hf'
  exact ⟨a', b', k1, l1, hw'.alike hw.some k2 l2 l3⟩

/-- **C91** (repeated forwards). -/
theorem C91_loop_partial (fp : Fp) (hfp : Representable fp) {g g' : Geo} (hB : g.B < 16384) (hB' : g'.B < 16384) (hNB : g.N * g.B ≤ 2 ^ 30) (hNB' : g'.N * g'.B ≤ 2 ^ 30)
    (a : FileReader) {m m' : List Nat} {off nch D : Nat} (hw : WavFile m off nch D) (hw' : SameFrames m off nch D m')
    (past past' : Bool) (junk : List Nat) (hj : junk.length = 36) (hc' : nch ≤ 32767) (hhead : a.rd.header = 0)
    {R mm mm' : Int} (hset : RepeatSettings a.rd R) {p : Nat} (hgrid : GridRate p a.rd.rate) (hrem : OnGrid p a.rd.rem) (hrem0 : 0 ≤ a.rd.rem)
    (hloop : GoodLoop g m ((off + 8) / 2 : Nat) nch a.rd.loopStart a.rd.loopFinish (firstFrame a.rd))
    (hloop' : GoodLoop g' m' 0 nch a.rd.loopStart a.rd.loopFinish (firstFrame a.rd))
    (hmm0 : 0 ≤ mm) (hmm : 2 * mm + 5 ≤ g.N) (hadv : 128 * (nch * (R + 1)) ≤ mm * g.B)
    (hmm0' : 0 ≤ mm') (hmm' : 2 * mm' + 5 ≤ g'.N) (hadv' : 128 * (nch * (R + 1)) ≤ mm' * g'.B)
    (nullOk nullOk' : Bool) {fuel fuel' : Nat} (hf : g.N ≤ fuel + 2) (hf' : g'.N ≤ fuel' + 2) :
    ∃ a' b', a.playWav g (some ⟨m, 0, past⟩) junk = .ok (true, a') ∧ a.playRaw g' (some ⟨m', 0, past'⟩) nch = .ok (true, b') ∧
      SoundAlike fp g g' nullOk nullOk' (fuel + 2) (fuel' + 2) a' b' (fun _ => True) := by
  obtain ⟨a', k1, k2⟩ := C84_loop_partial fp hfp g hB hNB a hw.bytes hw.small past junk hj hw.good hw.depth hw.data hw.even hw.chans hw.some hc' hset hgrid hrem hrem0 hloop hmm0 hmm
    hadv nullOk hf
  obtain ⟨b', l1, l2, l3⟩ := C84_loop_raw_partial fp hfp g' hB' hNB' a hw'.bytes hw'.small past' hw.some hc' hhead hset hgrid hrem hrem0 hloop' hmm0' hmm' hadv' nullOk' hf'
  exact ⟨a', b', k1, l1, hw'.alike hw.some k2 l2 l3⟩

/-- **C91** (repeated backwards). -/
theorem C91_loop_back_partial (fp : Fp) (hfp : Representable fp) {g g' : Geo} (hB : g.B < 16384) (hB' : g'.B < 16384) (hNB : g.N * g.B ≤ 2 ^ 30) (hNB' : g'.N * g'.B ≤ 2 ^ 30)
    (a : FileReader) {m m' : List Nat} {off nch D : Nat} (hw : WavFile m off nch D) (hw' : SameFrames m off nch D m')
    (past past' : Bool) (junk : List Nat) (hj : junk.length = 36) (hc' : nch ≤ 32767) (hhead : a.rd.header = 0)
    {R mm mm' : Int} (hset : RepeatBackSettings fp a.rd R) {p : Nat} {ρ : ℚ} (hrate : a.rd.rate = -ρ) (hgrid : GridRate p ρ) (hrem : OnGrid p a.rd.rem) (hrem0 : a.rd.rem ≤ 0)
    {s : Nat} (hP : StartsBackAt a.rd ((m.length : Int) / 2) ((off + 8) / 2 : Nat) a.rd.loopFinish nch ((off + 8) / 2 + s * nch : Nat))
    (hP' : StartsBackAt a.rd ((m'.length : Int) / 2) 0 a.rd.loopFinish nch (s * nch : Nat))
    (hloop : GoodLoopBack g m ((off + 8) / 2 : Nat) nch a.rd.loopStart a.rd.loopFinish ((off + 8) / 2 + s * nch : Nat))
    (hloop' : GoodLoopBack g' m' 0 nch a.rd.loopStart a.rd.loopFinish (s * nch : Nat))
    (hmm0 : 0 ≤ mm) (hmm : 2 * mm + 5 ≤ g.N) (hadv : 128 * (nch * (R + 1)) + nch * nch ≤ mm * g.B)
    (hmm0' : 0 ≤ mm') (hmm' : 2 * mm' + 5 ≤ g'.N) (hadv' : 128 * (nch * (R + 1)) + nch * nch ≤ mm' * g'.B)
    (nullOk nullOk' : Bool) {fuel fuel' : Nat} (hf : g.N ≤ fuel + 2) (hf' : g'.N ≤ fuel' + 2) :
    ∃ a' b', a.playWav g (some ⟨m, 0, past⟩) junk = .ok (true, a') ∧ a.playRaw g' (some ⟨m', 0, past'⟩) nch = .ok (true, b') ∧
      SoundAlike fp g g' nullOk nullOk' (fuel + 2) (fuel' + 2) a' b' (fun _ => True) := by
  obtain ⟨a', k1, k2⟩ := C84_loop_back_partial fp hfp g hB hNB a hw.bytes hw.small past junk hj hw.good hw.depth hw.data hw.even hw.chans hw.some hc' hset hrate hgrid hrem hrem0 hP
    hloop hmm0 hmm hadv nullOk hf
  obtain ⟨b', l1, l2, l3⟩ := C84_loop_back_raw_partial fp hfp g' hB' hNB' a hw'.bytes hw'.small past' hw.some hc' hhead hset hrate hgrid hrem hrem0 hP' hloop' hmm0' hmm' hadv' nullOk' hf'
  exact ⟨a', b', k1, l1, hw'.alike hw.some k2 l2 l3⟩

/-- **C91** (to and fro). -/
theorem C91_swing_partial (fp : Fp) (hfp : Representable fp) {g g' : Geo} (hB : g.B < 16384) (hB' : g'.B < 16384) (hNB : g.N * g.B ≤ 2 ^ 30) (hNB' : g'.N * g'.B ≤ 2 ^ 30)
    (a : FileReader) {m m' : List Nat} {off nch D : Nat} (hw : WavFile m off nch D) (hw' : SameFrames m off nch D m')
    (past past' : Bool) (junk : List Nat) (hj : junk.length = 36) (hc' : nch ≤ 32767) (hhead : a.rd.header = 0)
    {R : Int} (hset : PingSettings fp a.rd R) {p : Nat} (hgrid : GridRate p |a.rd.rate|) (hrem : OnGrid p a.rd.rem)
    (hsign : 0 ≤ a.rd.rem * a.rd.rate) (hwhole : a.rd.playStart = .sample → a.rd.loopStart = 0) {q : Int}
    (hP : StartsPingAt a.rd ((m.length : Int) / 2) ((off + 8) / 2 : Nat) nch (((off + 8) / 2 : Nat) + q * nch))
    (hP' : StartsPingAt a.rd ((m'.length : Int) / 2) 0 nch (q * nch)) (hin : a.rd.loopStart ≤ q) (hin' : a.rd.rate < 0 → q + nch ≤ a.rd.loopFinish)
    (hloop : GoodPing g m (0 ≤ a.rd.rate) ((off + 8) / 2 : Nat) nch a.rd.loopStart a.rd.loopFinish (((off + 8) / 2 : Nat) + a.rd.loopStart * nch) R
      (((off + 8) / 2 : Nat) + q * nch))
    (hloop' : GoodPing g' m' (0 ≤ a.rd.rate) 0 nch a.rd.loopStart a.rd.loopFinish (a.rd.loopStart * nch) R (q * nch))
    (nullOk nullOk' : Bool) {fuel fuel' : Nat} (hf : g.N ≤ fuel + 2) (hf' : g'.N ≤ fuel' + 2) :
    ∃ a' b', a.playWav g (some ⟨m, 0, past⟩) junk = .ok (true, a') ∧ a.playRaw g' (some ⟨m', 0, past'⟩) nch = .ok (true, b') ∧
      SoundAlike fp g g' nullOk nullOk' (fuel + 2) (fuel' + 2) a' b' (fun _ => True) := by
  obtain ⟨a', k1, k2⟩ := C84_swing_partial fp hfp g hB hNB a hw.bytes hw.small past junk hj hw.good hw.depth hw.data hw.even hw.chans hw.some hc' hset hgrid hrem hsign hwhole hP hin
    hin' hloop nullOk hf
  obtain ⟨b', l1, l2, l3⟩ := C84_swing_raw_partial fp hfp g' hB' hNB' a hw'.bytes hw'.small past' hw.some hc' hhead hset hgrid hrem hsign hwhole hP' hin hin' hloop' nullOk' hf'
  exact ⟨a', b', k1, l1, hw'.alike hw.some k2 l2 l3⟩

/-! ## Examples -/

/-- A raw file that is the data chunk of a WAV file. -/
theorem SameFrames.split {head m' : List Nat} (hb : IsBytes (head ++ m')) (hm : (head ++ m').length < 2 ^ 31) {off : Nat} (ho : head.length = off + 8) (nch : Nat) :
    SameFrames (head ++ m') off nch m'.length m' :=
  ⟨fun b h => hb b (List.mem_append_right _ h), by rw [List.length_append] at hm; omega, rfl, fun i ch _ _ => by
    unfold dataSample slice
    rw [← ho, Nat.zero_add, List.drop_append, List.drop_of_length_le (by omega), List.nil_append, Nat.add_sub_cancel_left]⟩

def exRaw : List Nat := [1, 0, 2, 0, 3, 0, 4, 0]

theorem exRaw_same : SameFrames exWav 48 2 8 exRaw :=
  SameFrames.split (head := header exFields ++ listChunk (some [73, 78, 70, 79]) ++ dataHead 8) exWav_bytes (by decide) (by decide) 2

/-- Forwards at half speed. -/
example : ∃ a' b', exHalf.playWav sdGeo (some ⟨exWav, 0, false⟩) (List.replicate 36 7) = .ok (true, a') ∧
    exHalf.playRaw ⟨9, 5, fun _ => []⟩ (some ⟨exRaw, 0, true⟩) 2 = .ok (true, b') ∧
    SoundAlike Fp.ieee sdGeo ⟨9, 5, fun _ => []⟩ true false (5 + 2) (5 + 2) a' b' (fun _ => True) :=
  C91_forward_partial Fp.ieee ieee_representable (by decide) (by decide) (by decide) (by decide) exHalf exWav_file exRaw_same (by decide) (by decide) false true
    (List.replicate 36 7) (by decide) (by decide) rfl (R := 1) (mm := 1) (mm' := 2) exHalf_settings (p := 1)
    ⟨by norm_num, ⟨1, by norm_num [exHalf]⟩, by norm_num [exHalf, abs_of_pos], by norm_num [exHalf, abs_of_pos]⟩
    (by simpa [exHalf] using OnGrid.int 1 0) (by norm_num [exHalf]) (by intro h; cases h)
    (by decide) (by decide) (by decide) (by decide) (by decide) (by decide) true false (by decide) (by decide)

/-- Backwards at half speed. -/
example : ∃ a' b', exMinusHalf.playWav sdGeo (some ⟨exWav, 0, false⟩) (List.replicate 36 7) = .ok (true, a') ∧
    exMinusHalf.playRaw ⟨9, 5, fun _ => []⟩ (some ⟨exRaw, 0, true⟩) 2 = .ok (true, b') ∧
    SoundAlike Fp.ieee sdGeo ⟨9, 5, fun _ => []⟩ true false (5 + 2) (5 + 2) a' b' (fun _ => True) :=
  C91_back_partial Fp.ieee ieee_representable (by decide) (by decide) (by decide) (by decide) exMinusHalf exWav_file exRaw_same false true
    (List.replicate 36 7) (by decide) (by decide) rfl (R := 1) (mm := 1) (mm' := 2) exMinusHalf_settings (p := 1) (ρ := 1 / 2)
    (by norm_num [exMinusHalf]) ⟨by norm_num, ⟨1, by norm_num⟩, by norm_num [abs_of_pos], by norm_num [abs_of_pos]⟩
    (by simpa [exMinusHalf] using OnGrid.int 1 0) (by norm_num [exMinusHalf]) (s := 1) (by decide) (by show ((_ : Nat) : Int) = _; decide) (by show ((_ : Nat) : Int) = _; decide)
    ⟨by decide, by decide, by decide, by decide⟩ ⟨by decide, by decide, by decide, by decide⟩
    (by decide) (by decide) (by decide) (by decide) (by decide) (by decide) true false (by decide) (by decide)

def exCountRaw : List Nat := (List.range 1500).flatMap fun i => [i % 256, i / 256, 7, 0]

theorem exCountRaw_length : exCountRaw.length = 6000 := by decide +kernel

theorem exCountRaw_same : SameFrames exCount 48 2 6000 exCountRaw := by
  have h := SameFrames.split (head := header exFields ++ listChunk (some [73, 78, 70, 79]) ++ dataHead 6000) (m' := exCountRaw) exCount_bytes (by decide +kernel) (off := 48) (by decide) 2
  rw [exCountRaw_length] at h
  exact h

/-- Frames 10 to 13 again and again at half speed. -/
example : ∃ a' b', exFew.playWav exFineGeo (some ⟨exCount, 0, false⟩) (List.replicate 36 7) = .ok (true, a') ∧
    exFew.playRaw exFineGeo (some ⟨exCountRaw, 0, true⟩) 2 = .ok (true, b') ∧
    SoundAlike Fp.ieee exFineGeo exFineGeo true false (5 + 2) (5 + 2) a' b' (fun _ => True) :=
  C91_loop_partial Fp.ieee ieee_representable (by decide) (by decide) (by decide) (by decide) exFew exCount_file exCountRaw_same
    false true (List.replicate 36 7) (by decide) (by decide) rfl (mm := 1) (mm' := 1) exFew_settings (p := 1)
    ⟨by norm_num, ⟨1, by norm_num [exFew]⟩, by norm_num [exFew, abs_of_pos], by norm_num [exFew, abs_of_pos]⟩
    (by simpa [exFew] using OnGrid.int 1 0) (by norm_num [exFew])
    ⟨by decide, by decide, by decide +kernel, by decide, by decide, Or.inr ⟨by decide, by decide +kernel⟩⟩
    ⟨by decide, by decide, by rw [exCountRaw_length]; decide, by decide, by decide, Or.inr ⟨by decide, by rw [exCountRaw_length]; decide⟩⟩
    (by decide) (by decide) (by decide) (by decide) (by decide) (by decide) true false (fuel := 5) (fuel' := 5) (by decide) (by decide)

def exCountMoreRaw : List Nat := (List.range 3350).flatMap fun i => [i % 256, i / 256, 7, 0]

theorem exCountMoreRaw_length : exCountMoreRaw.length = 13400 := by decide +kernel

theorem exCountMoreRaw_same : SameFrames exCountMore 48 2 13400 exCountMoreRaw := by
  have hl : (header exFields ++ listChunk (some [73, 78, 70, 79]) ++ dataHead 13400).length = 48 + 8 := by decide
  have h := SameFrames.split (head := header exFields ++ listChunk (some [73, 78, 70, 79]) ++ dataHead 13400) (m' := exCountMoreRaw) exCountMore_bytes
    (by rw [List.length_append, hl, exCountMoreRaw_length]; decide) (off := 48) hl 2
  rw [exCountMoreRaw_length] at h
  exact h

theorem exFewBack_loop_raw : GoodLoopBack exFinerGeo exCountMoreRaw 0 (2 : Nat) exFewBack.rd.loopStart exFewBack.rd.loopFinish (3101 * 2 : Nat) := by
  exact ⟨by decide, by decide, by rw [exCountMoreRaw_length]; decide, by decide, by rw [exCountMoreRaw_length]; decide, by decide, by rw [exCountMoreRaw_length]; decide,
    Or.inr ⟨by decide, by decide⟩⟩

theorem exFewBack_start_raw (S : Int) : StartsBackAt exFewBack.rd S 0 exFewBack.rd.loopFinish (2 : Nat) (3101 * 2 : Nat) := by
  show ((_ : Nat) : Int) = _
  decide

/-- Frames 3100 to 3103 again and again backwards at half speed. -/
example : ∃ a' b', exFewBack.playWav exFinerGeo (some ⟨exCountMore, 0, false⟩) (List.replicate 36 7) = .ok (true, a') ∧
    exFewBack.playRaw exFinerGeo (some ⟨exCountMoreRaw, 0, true⟩) 2 = .ok (true, b') ∧
    SoundAlike Fp.ieee exFinerGeo exFinerGeo true false (5 + 2) (5 + 2) a' b' (fun _ => True) :=
  C91_loop_back_partial Fp.ieee ieee_representable (by decide) (by decide) (by decide) (by decide) exFewBack exCountMore_file exCountMoreRaw_same
    false true (List.replicate 36 7) (by decide) (by decide) rfl (mm := 1) (mm' := 1) exFewBack_settings (p := 1) (ρ := 1 / 2)
    (by norm_num [exFewBack]) ⟨by norm_num, ⟨1, by norm_num⟩, by norm_num [abs_of_pos], by norm_num [abs_of_pos]⟩
    (by simpa [exFewBack] using OnGrid.int 1 0) (by norm_num [exFewBack]) (s := 3101) (exFewBack_start _) (exFewBack_start_raw _) exFewBack_loop exFewBack_loop_raw
    (by decide) (by decide) (by decide) (by decide) (by decide) (by decide) true false (fuel := 5) (fuel' := 5) (by decide) (by decide)

/-- Frames 10 to 15 to and fro. -/
example : ∃ a' b', exFewPing.playWav exFineGeo (some ⟨exCount, 0, false⟩) (List.replicate 36 7) = .ok (true, a') ∧
    exFewPing.playRaw exFineGeo (some ⟨exCountRaw, 0, true⟩) 2 = .ok (true, b') ∧
    SoundAlike Fp.ieee exFineGeo exFineGeo true false (5 + 2) (5 + 2) a' b' (fun _ => True) :=
  C91_swing_partial Fp.ieee ieee_representable (by decide) (by decide) (by decide) (by decide) exFewPing exCount_file exCountRaw_same
    false true (List.replicate 36 7) (by decide) (by decide) rfl exFewPing_settings (p := 0)
    (by show GridRate 0 |1|; rw [abs_one]; exact ⟨by norm_num, ⟨1, by norm_num⟩, by norm_num, by norm_num⟩) (by simpa [exFewPing] using OnGrid.int 0 0) (by norm_num [exFewPing])
    (fun h => by cases h) (q := 12) (by unfold StartsPingAt; rw [if_pos (by norm_num [exFewPing])]; decide) (by unfold StartsPingAt; rw [if_pos (by norm_num [exFewPing])]; decide)
    (by decide) (fun h => absurd h (by norm_num [exFewPing]))
    ⟨by decide, by decide, by decide +kernel, by decide, by decide, ⟨by decide, by decide +kernel, by decide⟩,
      fun _ => ⟨by decide, Or.inr ⟨by decide, by decide, by decide +kernel⟩⟩, fun h => absurd (by norm_num [exFewPing]) h⟩
    ⟨by decide, by decide, by rw [exCountRaw_length]; decide, by decide, by decide, ⟨by decide, by rw [exCountRaw_length]; decide, by decide⟩,
      fun _ => ⟨by decide, Or.inr ⟨by decide, by decide, by rw [exCountRaw_length]; decide⟩⟩, fun h => absurd (by norm_num [exFewPing]) h⟩
    true false (fuel := 5) (fuel' := 5) (by decide) (by decide)

/-- The first samples of the blocks of the first update of a raw file. -/
def firstRawBlock (r : Rd) (m : List Nat) (nch : Int) : M (List (List Int)) := do
  let (_, p) ← ({ rdr := { rd := r } } : FilePlayer).playRaw noteGeo (some ⟨m, 0, false⟩) nch
  let (fxs, _) ← p.acts Fp.ideal noteGeo true 9 [.update fun _ => true]
  return fxs.map fun fx => (fx.transmitted.map fun b => b.1.take 3).getD 0 []

/-- **C91 refuted** (backwards from the end).  A WAV file with something behind the sound (here the bytes 9 9 9 9) is played backwards from
there, a raw file with the same frames from its last frame. -/
theorem C91_refuted : WavFile (notedWav [73, 78, 70, 79] [9, 9, 9, 9]) 48 2 8 ∧ SameFrames (notedWav [73, 78, 70, 79] [9, 9, 9, 9]) 48 2 8 exRaw ∧
    firstBlock { rate := -1 } (notedWav [73, 78, 70, 79] [9, 9, 9, 9]) = .ok [[2313, 0, 0]] ∧ firstRawBlock { rate := -1 } exRaw 2 = .ok [[3, 1, 0]] :=
  ⟨C89_refuted.1, ⟨by unfold IsBytes; decide, by decide, by decide, by
    intro i ch h1 h2
    exact (by decide : ∀ i < 2, ∀ ch < 2, dataSample (notedWav [73, 78, 70, 79] [9, 9, 9, 9]) (48 + 8) (i * 2 + ch) = dataSample exRaw 0 (i * 2 + ch)) i h1 ch h2⟩,
    by decide +kernel, by decide +kernel⟩

/-- Sixteen frames (i, 7). -/
def exSixteen : List Nat := (List.range 16).flatMap fun i => [i, 0, 7, 0]

/-- The same after a WAV file was played. -/
def rawAfterWav (w m : List Nat) (nch : Int) : M (List (List Int)) := do
  let (_, p) ← ({ rdr := {} } : FilePlayer).playWav noteGeo (some ⟨w, 0, false⟩) (List.replicate 36 0)
  let (_, p) ← p.playRaw noteGeo (some ⟨m, 0, false⟩) nch
  let (fxs, _) ← p.acts Fp.ideal noteGeo true 9 [.update fun _ => true]
  return fxs.map fun fx => (fx.transmitted.map fun b => b.1.take 3).getD 0 []

/-- **C91 refuted** (after a WAV file).  Playing a raw file does not forget the header of the WAV file played before (src/ResamplingReader.h:95-160 sets
`_header_offset` in line 146 only, for WAV files), so its first frames are left out: of sixteen frames the last two are heard. -/
theorem C91_again_refuted : firstRawBlock {} exSixteen 2 = .ok [[0, 1, 2]] ∧ rawAfterWav exWav exSixteen 2 = .ok [[14, 15, 0]] :=
  ⟨by decide +kernel, by decide +kernel⟩

end TVP
