import Verif.Lemmas.Tune
import Verif.Props.RawPath

/-!
# Property C92: any speed is kept

The accumulator `_remainder` is a double, to which the rate is added for each frame.  At a speed for which these sums are not exact a player
drifts away from the time at which a frame is due; by how much at most, whatever the speed.
-/

namespace TVP
open Spec

/-- A player just opened, forwards. -/
theorem amble_live {fp : Fp} (hfp : Representable fp) {g : Geo} (hNB : g.N * g.B ≤ 2 ^ 30) {a a' : FileReader} {m : List Nat} (hm : m.length < 2 ^ 31) {start nch F : Nat}
    (hc : 1 ≤ nch) (hdata : start + 2 * (F * nch) ≤ m.length) {R mm : Int} (hset : ForwardSettings a.rd R) (hrem0 : 0 ≤ a.rd.rem)
    (hstart : a.rd.playStart = .arbitrary → 0 ≤ a.rd.playbackStart ∧ a.rd.playbackStart ≤ F) (hmm : 2 * mm + 1 ≤ g.N)
    (hadv : 128 * (nch * (R + 1)) ≤ mm * g.B) (hop : Opens2 a.rd a') (k2 : a'.rd.nch = nch) (k3 : a'.rd.header = (start / 2 : Nat)) (k4 : a'.rd.fileSamples = F)
    (k5 : a'.rd.pos1 = (start / 2 : Nat) + startFrame a.rd * nch) (k6 : a'.rd.rate = a.rd.rate) (k7 : a'.rd.rem = a.rd.rem) {k : Nat} (hk : a.rd.rate + 1 ≤ 2 ^ k) :
    let x : ℚ := (startFrame a.rd : ℚ) + a.rd.rem
    Ambling fp R F x a.rd.rate 0 a'.rd ∧ Turns fp (samplesOf m) (start / 2) nch (driftPath fp F x a.rd.rate) (Ambling fp R F x a.rd.rate) ∧
      InTune (driftPath fp F x a.rd.rate) x a.rd.rate (2 ^ k / 2 ^ 53) F ∧
      ∀ t i, driftPath fp F x a.rd.rate t = some i → start + 2 * ((i + 1) * nch) ≤ m.length := by
  intro x
  have hn0 : (0 : Int) < nch := by exact_mod_cast hc
  have hR0 : 0 ≤ R := by
    have : (0 : ℚ) ≤ R := le_trans hset.rate0 hset.rateR
    exact_mod_cast this
  have hmul' : 2 * ((F : Int) * nch) = ((2 * (F * nch) : Nat) : Int) := by push_cast; rfl
  have hrem1 : a.rd.rem < 1 := lt_of_abs_lt hset.frac
  have hs0 : 0 ≤ startFrame a.rd ∧ startFrame a.rd ≤ F := by
    unfold startFrame; split
    · rename_i e; exact hstart e
    · exact ⟨le_refl _, Int.natCast_nonneg _⟩
  have hfl : ⌊x⌋ = startFrame a.rd := by
    rw [Int.floor_eq_iff]; constructor <;> linarith
  have hfr : Int.fract x = a.rd.rem := by unfold Int.fract; rw [hfl]; ring
  have hx0 : 0 ≤ x := add_nonneg (by exact_mod_cast hs0.1) hrem0
  have hx : IsFloat 53 (-1074) (Int.fract x) := by rw [hfr]; exact hset.flt
  have hB0 : (0 : Int) < g.B := by exact_mod_cast g.B_pos
  have hNB' : (g.N : Int) * g.B ≤ 2 ^ 30 := by exact_mod_cast hNB
  have h1 : mm * g.B ≤ g.N * g.B := mul_le_mul_of_nonneg_right (by omega) (le_of_lt hB0)
  have h2 : R + 1 ≤ nch * (R + 1) := le_mul_of_one_le_left (by omega) (by omega)
  have h3 : ((start / 2 : Nat) : Int) + nch * (F + R + 1) = (start / 2 : Nat) + F * nch + nch * (R + 1) := by ring
  have hlen : start / 2 + F * nch ≤ (samplesOf m).length := by
    have hsl : (samplesOf m).length = m.length / 2 := by unfold samplesOf; simp
    rw [hsl]; omega
  have hT := driftPath_inTune fp hfp (F := F) hset.rate0 hk hx hx0
  refine ⟨⟨?_, k6, k4⟩, amble_turns hfp hset.rate0 hx hlen, hT, ?_⟩
  · show Ambles a'.rd R x
    refine ⟨hop.plain hset.plain k2 hc, hop.2.2.1.trans hset.loop, by rw [k6]; exact hset.rate0, by rw [k6]; exact hset.rateR, by omega,
      by rw [hfl, k5, k3, k2], by rw [hfr, k7], hx, by rw [hfl]; exact hs0.1, by rw [k3]; exact Int.natCast_nonneg _, by rw [k4]; exact Int.natCast_nonneg _,
      by rw [k3, k2, k4, h3]; omega, by rw [hfl, k4]; omega⟩
  · intro t i hi
    have := Nat.mul_le_mul_right nch (show i + 1 ≤ F from (hT.frame t i hi).1)
    omega

/-- **C92** (WAV files).  A WAV file (16 bit, data chunk in the file, at an even byte) played forwards at any speed, without looping and
interpolation, any blocks being allocated at each update and each event serviced before the next: the frame heard at instant `t` is the one at
`x + t r`, but for at most `2^k/2^53` frames for each instant passed, where `r + 1 ≤ 2^k` (up to normal speed: `2^-52` frames); the player stops when
that position is past the end, to the same accuracy; and the frames come in order. -/
theorem C92_wav_partial (fp : Fp) (hfp : Representable fp) (g : Geo) (hB : g.B < 16384) (hNB : g.N * g.B ≤ 2 ^ 30) (a : FileReader) {m : List Nat}
    {off nch D : Nat} (hw : WavFile m off nch D) (hroom : off + 8 < m.length) (past : Bool) (junk : List Nat) (hj : junk.length = 36) (hc' : nch ≤ 32767)
    {R mm : Int} (hset : ForwardSettings a.rd R) (hrem0 : 0 ≤ a.rd.rem) {k : Nat} (hk : a.rd.rate + 1 ≤ 2 ^ k)
    (hstart : a.rd.playStart = .arbitrary → 0 ≤ a.rd.playbackStart ∧ a.rd.playbackStart ≤ (D / 2 / nch : Nat))
    (hmm0 : 0 ≤ mm) (hmm : 2 * mm + 1 ≤ g.N) (hadv : 128 * (nch * (R + 1)) ≤ mm * g.B) (nullOk : Bool) {fuel : Nat} (hf : g.N ≤ fuel + 2) :
    ∃ a' path, a.playWav g (some ⟨m, 0, past⟩) junk = .ok (true, a') ∧
      InTune path ((if a.rd.playStart = .arbitrary then a.rd.playbackStart else 0) + a.rd.rem) a.rd.rate (2 ^ k / 2 ^ 53) (D / 2 / nch) ∧
      Sends fp g nullOk (fuel + 2) a' (fun i ch => dataSample m (off + 8) (i * nch + ch)) nch path := by
  have heven := hw.even
  have hin := hw.inFile
  obtain ⟨a', k0, k1, k2, k3, k4, k6, k7, k5, -, k8⟩ := C17_wav fp hfp g hB hNB a hw.bytes hw.small past junk hj hw.good hw.depth hw.data hw.chans hw.some hc' hw.len hw.inFile hroom hset hstart
    hmm0 hmm hadv nullOk (fuel := fuel + 1) (by omega)
  have hmul : (D / 2 / nch) * nch ≤ D / 2 := Nat.div_mul_le_self _ _
  obtain ⟨l1, l2, l3, l4⟩ := amble_live hfp (start := off + 8) (F := D / 2 / nch) hNB hw.small hw.some (by clear hw; omega) hset hrem0 hstart hmm hadv (playWav_opens k0)
    k2 k3 k4 k5 k6 k7 hk
  exact ⟨a', _, k0, l3, sends_of k8 l2 hw.some (by clear hw; omega) k1 k2 k3 l1 l4⟩

/-- **C92** (raw files). -/
theorem C92_raw_partial (fp : Fp) (hfp : Representable fp) (g : Geo) (hB : g.B < 16384) (hNB : g.N * g.B ≤ 2 ^ 30) (a : FileReader) {m : List Nat}
    (hb : IsBytes m) (h0 : 0 < m.length) (hm : m.length < 2 ^ 31) (past : Bool) {nch : Nat} (hc : 1 ≤ nch) (hc' : nch ≤ 32767) (hhead : a.rd.header = 0)
    {R mm : Int} (hset : ForwardSettings a.rd R) (hrem0 : 0 ≤ a.rd.rem) {k : Nat} (hk : a.rd.rate + 1 ≤ 2 ^ k)
    (hstart : a.rd.playStart = .arbitrary → 0 ≤ a.rd.playbackStart ∧ a.rd.playbackStart ≤ (m.length / 2 / nch : Nat))
    (hmm0 : 0 ≤ mm) (hmm : 2 * mm + 1 ≤ g.N) (hadv : 128 * (nch * (R + 1)) ≤ mm * g.B) (nullOk : Bool) {fuel : Nat} (hf : g.N ≤ fuel + 2) :
    ∃ a' path, a.playRaw g (some ⟨m, 0, past⟩) nch = .ok (true, a') ∧
      InTune path ((if a.rd.playStart = .arbitrary then a.rd.playbackStart else 0) + a.rd.rem) a.rd.rate (2 ^ k / 2 ^ 53) (m.length / 2 / nch) ∧
      Sends fp g nullOk (fuel + 2) a' (fun i ch => dataSample m 0 (i * nch + ch)) nch path := by
  obtain ⟨a', k0, k1, k2, k4, k5, k6, k7, k8⟩ := C17_raw fp hfp g hB hNB a hb h0 hm past hc hc' hset hhead hstart hmm0 hmm hadv nullOk (fuel := fuel + 1) (by omega)
  obtain ⟨hop, k3⟩ := playRaw_opens hm hc hc' k0
  have hdiv := Nat.div_mul_le_self (m.length / 2) nch
  obtain ⟨l1, l2, l3, l4⟩ := amble_live hfp (start := 0) (F := m.length / 2 / nch) hNB hm hc (by omega) hset hrem0 hstart hmm hadv hop k2 (k3.trans hhead) k4
    (by rw [k5]; simp) k6 k7 hk
  exact ⟨a', _, k0, l3, sends_of k8 l2 hc rfl k1 k2 (k3.trans hhead) l1 l4⟩

/-- A player just opened, backwards. -/
theorem stroll_live {fp : Fp} (hfp : Representable fp) {g : Geo} (hNB : g.N * g.B ≤ 2 ^ 30) {a a' : FileReader} {m : List Nat} (hm : m.length < 2 ^ 31) {start nch F : Nat}
    (hc : 1 ≤ nch) (hdata : start + 2 * (F * nch) ≤ m.length) {R mm : Int} (hset : BackwardSettings fp a.rd R) {ρ : ℚ} (hrate : a.rd.rate = -ρ)
    (hrem0 : a.rd.rem ≤ 0) {s : Nat} (hs : s < F) (hmm : 2 * mm + 1 ≤ g.N)
    (hadv : 128 * (nch * (R + 1)) ≤ mm * g.B) (hop : Opens2 a.rd a') (k2 : a'.rd.nch = nch) (k3 : a'.rd.header = (start / 2 : Nat)) (k4 : a'.rd.fileSamples = F)
    (k5 : a'.rd.pos1 = (start / 2 + s * nch : Nat)) (k6 : a'.rd.rate = a.rd.rate) (k7 : a'.rd.rem = a.rd.rem) {k : Nat} (hk : ρ + 1 ≤ 2 ^ k) :
    let x : ℚ := ((s : Nat) : ℚ) + a.rd.rem
    Strolling fp R F x ρ 0 a'.rd ∧ Turns fp (samplesOf m) (start / 2) nch (driftBackPath fp x ρ) (Strolling fp R F x ρ) ∧
      InTuneBack (driftBackPath fp x ρ) x ρ (2 ^ k / 2 ^ 53) ∧
      ∀ t i, driftBackPath fp x ρ t = some i → i ≤ s ∧ start + 2 * ((i + 1) * nch) ≤ m.length := by
  intro x
  have hn0 : (0 : Int) < nch := by exact_mod_cast hc
  have hr0 : a.rd.rate < 0 := by
    by_contra hcc
    exact absurd (fp.f.nonneg (not_lt.1 hcc)) (not_le.2 hset.rateF)
  have hρ : 0 < ρ := by linarith
  have hR0 := hset.R0
  have hmul' : 2 * ((F : Int) * nch) = ((2 * (F * nch) : Nat) : Int) := by push_cast; rfl
  have hrem1 : -1 < a.rd.rem := neg_lt_of_abs_lt hset.frac
  have hcl : ⌈x⌉ = (s : Int) := by
    rw [Int.ceil_eq_iff]; constructor <;> push_cast <;> linarith
  have hfr : x - ⌈x⌉ = a.rd.rem := by rw [hcl]; push_cast; ring
  have hx : IsFloat 53 (-1074) (x - ⌈x⌉) := by rw [hfr]; exact hset.flt
  have hB0 : (0 : Int) < g.B := by exact_mod_cast g.B_pos
  have hNB' : (g.N : Int) * g.B ≤ 2 ^ 30 := by exact_mod_cast hNB
  have h1 : mm * g.B ≤ g.N * g.B := mul_le_mul_of_nonneg_right (by omega) (le_of_lt hB0)
  have h2 : R + 1 ≤ nch * (R + 1) := le_mul_of_one_le_left (by omega) (by omega)
  have h3 : ((start / 2 : Nat) : Int) + nch * (F + R + 1) = (start / 2 : Nat) + F * nch + nch * (R + 1) := by ring
  have hlen : start / 2 + F * nch ≤ (samplesOf m).length := by
    have hsl : (samplesOf m).length = m.length / 2 := by unfold samplesOf; simp
    rw [hsl]; omega
  refine ⟨⟨?_, by rw [k6, hrate], k4⟩, stroll_turns hfp (le_of_lt hρ) hx hlen, driftBackPath_inTune fp hfp (le_of_lt hρ) hk hx, ?_⟩
  · show Strolls a'.rd R x
    refine ⟨hop.plain hset.plain k2 hc, hop.2.2.1.trans hset.loop, by rw [k6]; exact hr0, by rw [k6]; have := hset.rateR; linarith, by omega,
      by rw [hcl, k5, k3, k2]; push_cast; ring, by rw [hfr, k7], hx, by rw [k3]; exact Int.natCast_nonneg _, Or.inr (hop.2.2.2.2.2 hset.loop),
      by rw [k4]; exact Int.natCast_nonneg _, by rw [k3, k2, k4, h3]; omega, by rw [hcl, k4]; exact_mod_cast hs, by rw [hcl]; omega⟩
  · intro t i hi
    have hmono : ∀ t : Nat, ⌈driftBackAt fp x ρ t⌉ ≤ s := by
      intro t
      induction t with
      | zero => exact le_of_eq hcl
      | succ t ih => exact le_trans (driftBack_mono fp hfp (le_of_lt hρ) hx t) ih
    have hle := hmono t
    unfold driftBackPath at hi
    split at hi
    · have hi' := Option.some.inj hi
      have his : i ≤ s := by omega
      have := Nat.mul_le_mul_right nch (show i + 1 ≤ F by omega)
      exact ⟨his, by omega⟩
    · cases hi

/-- **C92** (backwards).  A WAV file played backwards from frame `s` at any speed. -/
theorem C92_back_partial (fp : Fp) (hfp : Representable fp) (g : Geo) (hB : g.B < 16384) (hNB : g.N * g.B ≤ 2 ^ 30) (a : FileReader) {m : List Nat}
    {off nch D : Nat} (hw : WavFile m off nch D) (past : Bool) (junk : List Nat) (hj : junk.length = 36) (hc' : nch ≤ 32767)
    {R mm : Int} (hset : BackwardSettings fp a.rd R) {ρ : ℚ} (hrate : a.rd.rate = -ρ) (hrem0 : a.rd.rem ≤ 0) {k : Nat} (hk : ρ + 1 ≤ 2 ^ k) {s : Nat} (hs : s < D / 2 / nch)
    (hP : StartsBackAt a.rd ((m.length : Int) / 2) ((off + 8) / 2 : Nat) (D / 2 / nch : Nat) nch ((off + 8) / 2 + s * nch : Nat))
    (hgood : GoodStart g m ((off + 8) / 2 : Nat) nch ((off + 8) / 2 + s * nch : Nat))
    (hmm0 : 0 ≤ mm) (hmm : 2 * mm + 1 ≤ g.N) (hadv : 128 * (nch * (R + 1)) ≤ mm * g.B) (nullOk : Bool) {fuel : Nat} (hf : g.N ≤ fuel + 2) :
    ∃ a' path, a.playWav g (some ⟨m, 0, past⟩) junk = .ok (true, a') ∧ InTuneBack path (s + a.rd.rem) ρ (2 ^ k / 2 ^ 53) ∧ (∀ t i, path t = some i → i ≤ s) ∧
      Sends fp g nullOk (fuel + 2) a' (fun i ch => dataSample m (off + 8) (i * nch + ch)) nch path := by
  have heven := hw.even
  have hin := hw.inFile
  obtain ⟨a', k0, k1, k2, k3, k4, k5, k6, k7, k8⟩ := C18_wav_partial fp hfp g hB hNB a hw.bytes hw.small past junk hj hw.good hw.depth hw.data hw.chans hw.some hc' hw.len hw.inFile hset hP hgood
    hmm0 hmm hadv nullOk (fuel := fuel + 1) (by omega)
  have hmul : (D / 2 / nch) * nch ≤ D / 2 := Nat.div_mul_le_self _ _
  obtain ⟨l1, l2, l3, l4⟩ := stroll_live hfp (start := off + 8) (F := D / 2 / nch) hNB hw.small hw.some (by clear hw; omega) hset hrate hrem0 hs hmm hadv (playWav_opens k0)
    k2 k3 k4 k5 k6 k7 hk
  exact ⟨a', _, k0, l3, fun t i hi => (l4 t i hi).1, sends_of k8 l2 hw.some (by clear hw; omega) k1 k2 k3 l1 fun t i hi => (l4 t i hi).2⟩

/-- **C92** (backwards, raw files). -/
theorem C92_back_raw_partial (fp : Fp) (hfp : Representable fp) (g : Geo) (hB : g.B < 16384) (hNB : g.N * g.B ≤ 2 ^ 30) (a : FileReader) {m : List Nat}
    (hb : IsBytes m) (hm : m.length < 2 ^ 31) (past : Bool) {nch : Nat} (hc : 1 ≤ nch) (hc' : nch ≤ 32767) (hhead : a.rd.header = 0)
    {R mm : Int} (hset : BackwardSettings fp a.rd R) {ρ : ℚ} (hrate : a.rd.rate = -ρ) (hrem0 : a.rd.rem ≤ 0) {k : Nat} (hk : ρ + 1 ≤ 2 ^ k) {s : Nat} (hs : s < m.length / 2 / nch)
    (hP : StartsBackAt a.rd ((m.length : Int) / 2) 0 (m.length / 2 / nch : Nat) nch (s * nch : Nat)) (hgood : GoodStart g m 0 nch (s * nch : Nat))
    (hmm0 : 0 ≤ mm) (hmm : 2 * mm + 1 ≤ g.N) (hadv : 128 * (nch * (R + 1)) ≤ mm * g.B) (nullOk : Bool) {fuel : Nat} (hf : g.N ≤ fuel + 2) :
    ∃ a' path, a.playRaw g (some ⟨m, 0, past⟩) nch = .ok (true, a') ∧ InTuneBack path (s + a.rd.rem) ρ (2 ^ k / 2 ^ 53) ∧ (∀ t i, path t = some i → i ≤ s) ∧
      Sends fp g nullOk (fuel + 2) a' (fun i ch => dataSample m 0 (i * nch + ch)) nch path := by
  obtain ⟨a', k0, k1, k2, k4, k5, k6, k7, k8⟩ := C18_raw_partial fp hfp g hB hNB a hb hm past hc hc' hset hhead hP hgood hmm0 hmm hadv nullOk (fuel := fuel + 1) (by omega)
  obtain ⟨hop, k3⟩ := playRaw_opens hm hc hc' k0
  have hdiv := Nat.div_mul_le_self (m.length / 2) nch
  obtain ⟨l1, l2, l3, l4⟩ := stroll_live hfp (start := 0) (F := m.length / 2 / nch) hNB hm hc (by omega) hset hrate hrem0 hs hmm hadv hop k2 (k3.trans hhead) k4
    (by rw [k5]; simp) k6 k7 hk
  exact ⟨a', _, k0, l3, fun t i hi => (l4 t i hi).1, sends_of k8 l2 hc rfl k1 k2 (k3.trans hhead) l1 fun t i hi => (l4 t i hi).2⟩

/-- The double next to one tenth. -/
def tenth : ℚ := 3602879701896397 / 2 ^ 55

/-- A player before its first sound, at this speed. -/
def exTenth : FileReader := { rd := { rate := tenth } }

theorem exTenth_settings : ForwardSettings exTenth.rd 1 :=
  ⟨⟨rfl, rfl⟩, rfl, by norm_num [exTenth, tenth], by norm_num [exTenth, tenth], by
    show IsFloat 53 (-1074) 0
    simpa using Rounding.isFloat_of (p := 53) (emin := -1074) (by norm_num) (m := 0) (e := 0) (by norm_num) (by norm_num), by norm_num [exTenth]⟩

/-- A WAV file at a tenth of its speed: in ten million instants it drifts by less than a hundred-millionth of a frame. -/
example : ∃ a' path, exTenth.playWav sdGeo (some ⟨exWav, 0, false⟩) (List.replicate 36 7) = .ok (true, a') ∧
    InTune path (((if exTenth.rd.playStart = .arbitrary then exTenth.rd.playbackStart else 0 : Int) : ℚ) + exTenth.rd.rem) exTenth.rd.rate (2 ^ 1 / 2 ^ 53) (8 / 2 / 2) ∧
    Sends Fp.ieee sdGeo true (5 + 2) a' (fun i ch => dataSample exWav (48 + 8) (i * 2 + ch)) 2 path :=
  C92_wav_partial Fp.ieee ieee_representable sdGeo (by decide) (by decide) exTenth exWav_file (by decide) false
    (List.replicate 36 7) (by decide) (by decide) (R := 1) (mm := 1) exTenth_settings (by norm_num [exTenth]) (k := 1) (by norm_num [exTenth, tenth]) (by intro h; cases h)
    (by decide) (by decide) (by decide) true (by decide)

example : ∃ a' path, exTenth.playRaw ⟨9, 5, fun _ => []⟩ (some ⟨exRaw, 0, true⟩) 2 = .ok (true, a') ∧
    InTune path (((if exTenth.rd.playStart = .arbitrary then exTenth.rd.playbackStart else 0 : Int) : ℚ) + exTenth.rd.rem) exTenth.rd.rate (2 ^ 1 / 2 ^ 53) (exRaw.length / 2 / 2) ∧
    Sends Fp.ieee ⟨9, 5, fun _ => []⟩ false (5 + 2) a' (fun i ch => dataSample exRaw 0 (i * 2 + ch)) 2 path :=
  C92_raw_partial Fp.ieee ieee_representable ⟨9, 5, fun _ => []⟩ (by decide) (by decide) exTenth (by unfold IsBytes; decide) (by decide) (by decide) true (by decide) (by decide) rfl
    (R := 1) (mm := 2) exTenth_settings (by norm_num [exTenth]) (k := 1) (by norm_num [exTenth, tenth]) (by intro h; cases h)
    (by decide) (by decide) (by decide) false (by decide)

/-- A player before its first sound, at this speed backwards. -/
def exMinusTenth : FileReader := { rd := { rate := -tenth } }

theorem exMinusTenth_settings : BackwardSettings Fp.ieee exMinusTenth.rd 1 :=
  ⟨⟨rfl, rfl⟩, rfl, by decide +kernel, by norm_num [exMinusTenth, tenth], by
    show IsFloat 53 (-1074) 0
    simpa using Rounding.isFloat_of (p := 53) (emin := -1074) (by norm_num) (m := 0) (e := 0) (by norm_num) (by norm_num), by norm_num [exMinusTenth]⟩

example : ∃ a' path, exMinusTenth.playWav sdGeo (some ⟨exWav, 0, false⟩) (List.replicate 36 7) = .ok (true, a') ∧
    InTuneBack path ((1 : Nat) + exMinusTenth.rd.rem) tenth (2 ^ 1 / 2 ^ 53) ∧ (∀ t i, path t = some i → i ≤ 1) ∧
    Sends Fp.ieee sdGeo true (5 + 2) a' (fun i ch => dataSample exWav (48 + 8) (i * 2 + ch)) 2 path :=
  C92_back_partial Fp.ieee ieee_representable sdGeo (by decide) (by decide) exMinusTenth exWav_file false
    (List.replicate 36 7) (by decide) (by decide) (R := 1) (mm := 1) exMinusTenth_settings (ρ := tenth) rfl (by norm_num [exMinusTenth]) (k := 1) (by norm_num [tenth])
    (s := 1) (by decide) (by show ((_ : Nat) : Int) = _; decide) ⟨by decide, by decide, by decide, by decide⟩
    (by decide) (by decide) (by decide) true (by decide)

example : ∃ a' path, exMinusTenth.playRaw ⟨9, 5, fun _ => []⟩ (some ⟨exRaw, 0, true⟩) 2 = .ok (true, a') ∧
    InTuneBack path ((1 : Nat) + exMinusTenth.rd.rem) tenth (2 ^ 1 / 2 ^ 53) ∧ (∀ t i, path t = some i → i ≤ 1) ∧
    Sends Fp.ieee ⟨9, 5, fun _ => []⟩ false (5 + 2) a' (fun i ch => dataSample exRaw 0 (i * 2 + ch)) 2 path :=
  C92_back_raw_partial Fp.ieee ieee_representable ⟨9, 5, fun _ => []⟩ (by decide) (by decide) exMinusTenth (by unfold IsBytes; decide) (by decide) true (by decide) (by decide) rfl
    (R := 1) (mm := 2) exMinusTenth_settings (ρ := tenth) rfl (by norm_num [exMinusTenth]) (k := 1) (by norm_num [tenth])
    (s := 1) (by decide) (by show ((_ : Nat) : Int) = _; decide) ⟨by decide, by decide, by decide, by decide⟩
    (by decide) (by decide) (by decide) false (by decide)

/-- The first samples of the first block of a raw file, in double precision. -/
def firstTwelve (r : Rd) (m : List Nat) (nch : Int) : M (List (List Int)) := do
  let (_, p) ← ({ rdr := { rd := r } } : FilePlayer).playRaw noteGeo (some ⟨m, 0, false⟩) nch
  let (fxs, _) ← p.acts Fp.ieee noteGeo true 9 [.update fun _ => true]
  return fxs.map fun fx => (fx.transmitted.map fun b => b.1.take 12).getD 0 []

/-- **C92 refuted** (exactly).  The frame heard at instant `t` is not always the one at `t r`: at a tenth of the speed, or rather a little more,
frame 1 is due at instant 10 and heard at instant 11, for the ten sums are rounded down. -/
theorem C92_refuted : (1 : ℚ) ≤ 10 * tenth ∧ firstTwelve { rate := tenth } exSixteen 2 = .ok [[0, 0, 0, 0, 0, 0, 0, 0, 0, 0, 0, 1]] :=
  ⟨by norm_num [tenth], by decide +kernel⟩

end TVP
