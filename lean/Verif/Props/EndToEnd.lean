import Verif.Props.Stream
import Verif.Lemmas.Blocks

/-!
# Properties C59, C06: from the bytes of a WAV file to the blocks at the outputs
-/

namespace TVP
open Spec

theorem soundBlock_congr {v w : Nat → Nat → Int} {F : Int} {x r : ℚ} (hx : 0 ≤ x) (hr : 0 ≤ r) {ch : Nat}
    (h : ∀ i : Nat, (i : Int) < F → v i ch = w i ch) (k : Nat) : soundBlock v F x r k ch = soundBlock w F x r k ch := by
  unfold soundBlock
  refine List.map_congr_left fun t _ => ?_
  split
  · rename_i hlt
    have h0 : 0 ≤ ⌊x + ((128 * k + t : Nat) : ℚ) * r⌋ := Int.floor_nonneg.2 (add_nonneg hx (mul_nonneg (by positivity) hr))
    exact h _ (by omega)
  · rfl

theorem soundStep_congr {v w : Nat → Nat → Int} {nch : Nat} {F : Int} {x r : ℚ} (hx : 0 ≤ x) (hr : 0 ≤ r) (hn : 1 ≤ nch)
    (h : ∀ i ch : Nat, (i : Int) < F → ch < nch → v i ch = w i ch) (st : Option Nat) (al : Nat → Bool) :
    soundStep v nch F x r st al = soundStep w nch F x r st al := by
  cases st with
  | none => rfl
  | some k =>
    unfold soundStep
    simp only
    have e : (List.range nch).map (fun ch => (soundBlock v F x r k ch, ch)) = (List.range nch).map (fun ch => (soundBlock w F x r k ch, ch)) :=
      List.map_congr_left fun ch hc => by rw [soundBlock_congr hx hr (fun i hi => h i ch hi (List.mem_range.1 hc)) k]
    rw [e, soundBlock_congr hx hr (ch := 0) (fun i hi => h i 0 hi (by omega)) k]

theorem soundPlay_congr {v w : Nat → Nat → Int} {nch : Nat} {F : Int} {x r : ℚ} (hx : 0 ≤ x) (hr : 0 ≤ r) (hn : 1 ≤ nch)
    (h : ∀ i ch : Nat, (i : Int) < F → ch < nch → v i ch = w i ch) : ∀ (als : List (Nat → Bool)) (st : Option Nat),
    soundPlay v nch F x r st als = soundPlay w nch F x r st als
  | [], _ => rfl
  | al :: als, st => by
    unfold soundPlay
    simp only [soundStep_congr hx hr hn h, soundPlay_congr hx hr hn h als]

theorem fileSample_data (m : List Nat) {start : Nat} (he : start % 2 = 0) (j : Nat) : fileSample m (start / 2 + j) = dataSample m start j := by
  unfold fileSample dataSample
  rw [show 2 * (start / 2 + j) = start + 2 * j by omega]

theorem samplesOf_getD {m : List Nat} {i : Nat} (h : i < m.length / 2) : (samplesOf m).getD i 0 = fileSample m i := by
  unfold samplesOf
  rw [List.getD_eq_getElem?_getD, List.getElem?_map, List.getElem?_range h]
  rfl

/-- **C59**.  A WAV file (16 bit, data chunk in the file, at an even byte) is played forwards at a rate `r` without looping
and interpolation, any blocks can or cannot be allocated at each update, and each event is serviced before the next update.
The update number `k` among those that get their blocks transmits for each channel the samples of the data chunk's frames
`⌊x + (128 k + t) r⌋`, `t = 0 … 127`, silence after the last frame, where `x` is the frame playback starts at (plus what an
earlier sound left in the accumulator); and after the first block that was not full nothing more is sent, the player has
stopped, and the cache never missed. -/
theorem C59_end_to_end (fp : Fp) (hfp : Representable fp) (g : Geo) (hB : g.B < 16384) (hNB : g.N * g.B ≤ 2 ^ 30) (a : FileReader) {m : List Nat}
    (hb : IsBytes m) (hm : m.length < 2 ^ 31) (past : Bool) (junk : List Nat) (hj : junk.length = 36) (hg : GoodHeader m)
    (hdep : leVal (slice m 34 2) = 16) {off : Nat} (hda : DataAt m off) (heven : off % 2 = 0) {nch D : Nat} (hn : leVal (slice m 22 2) = nch)
    (hc : 1 ≤ nch) (hc' : nch ≤ 32767) (hD : leVal (slice m (off + 4) 4) = D) (hdata : off + 8 + D ≤ m.length) (hroom : off + 8 < m.length)
    {R mm : Int} (hset : ForwardSettings a.rd R) {p : Nat} (hgrid : GridRate p a.rd.rate) (hrem : OnGrid p a.rd.rem) (hrem0 : 0 ≤ a.rd.rem)
    (hstart : a.rd.playStart = .arbitrary → 0 ≤ a.rd.playbackStart ∧ a.rd.playbackStart ≤ (D / 2 / nch : Nat))
    (hmm0 : 0 ≤ mm) (hmm : 2 * mm + 1 ≤ g.N) (hadv : 128 * (nch * (R + 1)) ≤ mm * g.B) (nullOk : Bool) {fuel : Nat} (hf : g.N ≤ fuel + 2) :
    ∃ a', a.playWav g (some ⟨m, 0, past⟩) junk = .ok (true, a') ∧ ∀ als : List (Nat → Bool),
      let told := soundPlay (fun i ch => dataSample m (off + 8) (i * nch + ch)) nch (D / 2 / nch : Nat)
        ((if a.rd.playStart = .arbitrary then a.rd.playbackStart else 0) + a.rd.rem) a.rd.rate (some 0) als
      ∃ a'', a'.ticks fp g nullOk (fuel + 2) als = .ok (told.1, a'') ∧ a''.rd.playing = told.2.isSome ∧ ∀ c, a''.src = some c → c.fails = 0 := by
  obtain ⟨a', k1, k2, k3, k4, k5, k6, k7, k8, k9, k10⟩ := C17_wav fp hfp g hB hNB a hb hm past junk hj hg hdep hda hn hc hc' hD hdata hroom hset hstart
    hmm0 hmm hadv nullOk (fuel := fuel + 1) (by omega)
  refine ⟨a', k1, fun als => ?_⟩
  clear k1 hj
  have hR : 0 ≤ R := by
    have : (0 : ℚ) ≤ R := le_trans hset.rate0 hset.rateR
    exact_mod_cast this
  have hNB' : (g.N : Int) * g.B ≤ 2 ^ 30 := by exact_mod_cast hNB
  have hB0 : (0 : Int) < g.B := by exact_mod_cast g.B_pos
  have h1 : mm * g.B ≤ g.N * g.B := mul_le_mul_of_nonneg_right (by omega) (le_of_lt hB0)
  have h2 : R + 1 ≤ nch * (R + 1) := le_mul_of_one_le_left (by omega) (by omega)
  have hmul : ((D / 2 / nch : Nat) : Int) * nch ≤ (D / 2 : Nat) := by exact_mod_cast Nat.div_mul_le_self _ _
  set F : Int := ((D / 2 / nch : Nat) : Int) with hF
  set H : Nat := (off + 8) / 2 with hH
  have hF0 : 0 ≤ F := by rw [hF]; exact Int.natCast_nonneg _
  have h3 : H + nch * (F + R + 1) = H + F * nch + nch * (R + 1) := by ring
  have hlen : (H : Int) + F * nch ≤ m.length / 2 := by omega
  set s : Int := if a.rd.playStart = .arbitrary then a.rd.playbackStart else 0 with hs
  have hs' : startFrame a.rd = s := rfl
  have hs0 : 0 ≤ s ∧ s ≤ F := by
    rw [hs]; split
    · rename_i e; exact hstart e
    · exact ⟨le_refl _, hF0⟩
  have hrem1 : a.rd.rem < 1 := lt_of_abs_lt hset.frac
  have hfl : ⌊(s : ℚ) + a.rd.rem⌋ = s := by
    rw [Int.floor_eq_iff]; constructor <;> linarith
  have hx0 : 0 ≤ (s : ℚ) + a.rd.rem := add_nonneg (by exact_mod_cast hs0.1) hrem0
  have hfwd : Fwd a'.rd p R ((s : ℚ) + a.rd.rem) := by
    refine ⟨k9.plain, k9.loop, k9.rate0, by rw [k6]; exact hgrid, ?_, hx0, by rw [hfl, k8, k4, k3, hs'], by rw [hfl, k7]; ring, by rw [k4]; omega,
      by rw [k5]; exact hF0, k9.rateR, by rw [k4, k3, k5, h3]; omega, by rw [hfl, k5]; omega⟩
    exact OnGrid.add (OnGrid.int p s) hrem
  have hso : Sounding (samplesOf m) H nch F p R ((s : ℚ) + a.rd.rem) a.rd.rate (some 0) ⟨a'.rd, some (samplesOf m)⟩ := by
    refine ⟨k2, k3, fun k hk => ?_⟩
    cases hk
    exact ⟨by simpa using hfwd, rfl, k4, k5, k6⟩
  have hsl : ((samplesOf m).length : Int) = (m.length : Int) / 2 := by unfold samplesOf; simp
  obtain ⟨b', j1, j2⟩ := Sounding.ticks (fp := fp) hc hset.rate0 hx0 (by rw [hsl]; exact hlen) fuel als hso
  have hval : ∀ i ch : Nat, (i : Int) < F → ch < nch → material (samplesOf m) H nch i ch = dataSample m (off + 8) (i * nch + ch) := by
    intro i ch hi hch
    have hle : ((i : Int) + 1) * nch ≤ F * nch := mul_le_mul_of_nonneg_right (by omega) (by omega)
    rw [add_mul, one_mul] at hle
    have hcast : ((i * nch : Nat) : Int) = (i : Int) * nch := by push_cast; rfl
    unfold material
    rw [samplesOf_getD (by omega), add_assoc, ← fileSample_data m (start := off + 8) (by omega)]
  rw [soundPlay_congr hx0 hset.rate0 hc hval] at j1 j2
  obtain ⟨fxs, a'', b'', l1, l2, l3, l4⟩ := k10 als
  rw [j1] at l2
  simp only [Except.ok.injEq, Prod.mk.injEq] at l2
  obtain ⟨l2a, l2b⟩ := l2
  exact ⟨a'', by rw [l1, ← l2a], by rw [l3, ← l2b]; exact j2.playing, l4⟩

/-- The first frame of a player that has just been started at sample `H` of the file. -/
theorem first_frame {fp : Fp} (hfp : Representable fp) {g : Geo} (hB : g.B < 16384) (hNB : g.N * g.B ≤ 2 ^ 30) {m : List Nat} (hb : IsBytes m)
    (hm : m.length < 2 ^ 31) {a : FileReader} {R mm : Int} {H F nch : Nat} (hplay : a.rd.playing = true) (hst : FwdAny R H F nch a.rd)
    (hc : 1 ≤ nch) (hR30 : R ≤ 2 ^ 30) (hF1 : 1 ≤ F)
    (hfits : (H : Int) + nch * (F + R + 1) ≤ 2147483647) (hin : 2 * (H + nch) ≤ m.length) (hp : a.rd.pos1 = H) {c : Cache} {k : Int} {L : Nat}
    (hcs : a.src = some c) (hw : FWin m g mm c k L) (hk1 : k ≤ a.rd.pos1 / g.B) (hk2 : a.rd.pos1 / g.B ≤ k + mm)
    (hmm : mm = if 3 ≤ g.N then 1 else 0) (nullOk : Bool) (fuel : Nat) :
    ∃ frame a'', a.read fp g nullOk (fuel + 1) 1 = .ok ([frame], a'') ∧ frame.length = nch ∧
      ∀ ch < nch, ((H + ch) / g.B = H / g.B ∨ 3 ≤ g.N ∧ nch ≤ g.B) → frame.getD ch 0 = fileSample m (H + ch) := by
  have hB0 : (0 : Int) < g.B := by exact_mod_cast g.B_pos
  have hNB' : (g.N : Int) * g.B ≤ 2 ^ 30 := by exact_mod_cast hNB
  have hn := hst.chans
  have hR0 : 0 ≤ R := by
    have : (0 : ℚ) ≤ R := le_trans hst.rate0 hst.rateR
    exact_mod_cast this
  obtain ⟨ps, r', e1, _, _, _, _, e6, e7⟩ := FwdAny.trace hfp (R := R) hR30 (Int.natCast_nonneg _) (Int.natCast_nonneg _) hfits 1 a.rd hst
  have hx : (nch : Int) * (F + R + 1) = F * nch + nch * (R + 1) := by ring
  have hx0 : 0 ≤ (nch : Int) * (R + 1) := mul_nonneg (by omega) (by omega)
  have hF1' : (1 : Int) * nch ≤ F * nch := mul_le_mul_of_nonneg_right (by exact_mod_cast hF1) (by omega)
  have hat : a.rd.atEnd = false := by
    unfold Rd.atEnd
    have hpo : a.rd.posOf a.rd.fileSamples = H + F * nch := by
      rw [posOf_eq] <;> rw [hst.header, hst.fs, hst.chans]
      exact ⟨by omega, by omega⟩
    simp only [hst.plain.dual, Bool.false_eq_true, if_false, hst.rate0, ge_iff_le, if_true, hst.loop, hpo, hp]
    rw [decide_eq_false_iff_not]
    omega
  have hps : ps = [a.rd.pos1] := by
    unfold posTrace at e1
    rw [hat] at e1
    simp only [Bool.false_eq_true, if_false] at e1
    obtain ⟨r2, q1, q2⟩ := bind_ok_iff.1 e1
    unfold posTrace at q2
    simp only [ok_bind, Except.ok.injEq, Prod.mk.injEq] at q2
    exact q2.1.symm
  subst hps
  have hfile : ∀ ch < nch, InFile m (a.rd.pos1 + ch) := fun ch hch => ⟨by rw [hp]; omega, by omega⟩
  have hread : a.read fp g nullOk (fuel + 1) 1 = .ok ([frameAt (fun i => (c.get g i).1) a.rd.nch a.rd.pos1], ⟨r', some (c.gets g (framesIdx a.rd.nch [a.rd.pos1])).2⟩) := by
    unfold FileReader.read Rd.read
    rw [hplay, if_neg (by decide), if_neg (by omega), if_neg (by omega), hcs,
      readLoop_posTrace fp _ fuel 1 a.rd r' [a.rd.pos1] (some c) hst.plain hst.loop e1 (by
        intro p hp'
        rw [List.mem_singleton] at hp'
        subst hp'
        rw [hp, hn]
        exact ⟨⟨by omega, by omega⟩, fun c hc => ⟨by omega, by omega⟩⟩), srcFrames_file]
    rfl
  refine ⟨_, _, hread, by unfold frameAt; simp [hn], ?_⟩
  intro ch hch hor
  have hblk : (a.rd.pos1 + ch) / g.B ≤ a.rd.pos1 / g.B + mm := by
    rcases hor with h | ⟨h3, hle⟩
    · rw [hp]
      have : (((H + ch) / g.B : Nat) : Int) = (H / g.B : Nat) := by rw [h]
      push_cast at this ⊢
      rw [this, hmm]; split <;> omega
    · rw [hmm, if_pos h3, ← Int.add_mul_ediv_right _ _ (ne_of_gt hB0)]
      exact Int.ediv_le_ediv hB0 (by omega)
  have hbuf := (hw.round hB hb (by omega) (by omega) (is := [a.rd.pos1, a.rd.pos1 + ch]) hk1 hk2 (by
    intro i hi
    simp only [List.mem_cons, List.not_mem_nil, or_false] at hi
    rcases hi with rfl | rfl
    · exact ⟨by simpa using hfile 0 (by omega), le_refl _, by rw [hmm]; split <;> omega⟩
    · exact ⟨hfile ch hch, Int.ediv_le_ediv hB0 (by omega), hblk⟩) ⟨a.rd.pos1, by simp, rfl⟩).1 (a.rd.pos1 + ch) (by simp)
  have hserve := ((hw.reached.ok.serves hb (by omega) (hfile ch hch)).1 hbuf).1
  unfold frameAt
  rw [List.getD_eq_getElem?_getD, List.getElem?_map, List.getElem?_range (by rw [hn]; omega)]
  simp only [Option.map_some, Option.getD_some]
  rw [hserve, hp]
  congr 1

/-- **C06**.  After a successful `playWav` of a WAV file whose data chunk starts at an even byte (no LIST chunk, or one of even
length), playing forwards from the beginning: the channel count is the header's, the number of frames is data bytes divided by
`2 nch`, and the first frame read starts with the first sample of the data chunk.  The other channels too, as far as their
samples lie in the same block of the file; and all of them if there are three buffers of at least `nch` samples. -/
theorem C06_parameters (fp : Fp) (hfp : Representable fp) (g : Geo) (hB : g.B < 16384) (hN : 1 ≤ g.N) (hNB : g.N * g.B ≤ 2 ^ 30) (a : FileReader)
    {m : List Nat} (hb : IsBytes m) (hm : m.length < 2 ^ 31) (past : Bool) (junk : List Nat) (hj : junk.length = 36) (hg : GoodHeader m)
    (hdep : leVal (slice m 34 2) = 16) {off : Nat} (hda : DataAt m off) (heven : off % 2 = 0) {nch D : Nat} (hn : leVal (slice m 22 2) = nch)
    (hc : 1 ≤ nch) (hc' : nch ≤ 32767) (hD : leVal (slice m (off + 4) 4) = D) (hD1 : 2 * nch ≤ D) (hdata : off + 8 + D ≤ m.length)
    {R : Int} (hR : R ≤ 2 ^ 15) (hset : ForwardSettings a.rd R) (hstart : a.rd.playStart = .sample) (nullOk : Bool) (fuel : Nat) :
    ∃ a' frame a'', a.playWav g (some ⟨m, 0, past⟩) junk = .ok (true, a') ∧ a'.rd.nch = nch ∧ a'.rd.fileSamples = (D / (2 * nch) : Nat) ∧
      a'.read fp g nullOk (fuel + 1) 1 = .ok ([frame], a'') ∧ frame.length = nch ∧ frame.getD 0 0 = dataSample m (off + 8) 0 ∧
      ∀ ch < nch, (((off + 8) / 2 + ch) / g.B = (off + 8) / 2 / g.B ∨ 3 ≤ g.N ∧ nch ≤ g.B) → frame.getD ch 0 = dataSample m (off + 8) ch := by
  have hmul : ((D / 2 / nch : Nat) : Int) * nch ≤ (D / 2 : Nat) := by exact_mod_cast Nat.div_mul_le_self _ _
  have hF1 : 1 ≤ D / 2 / nch := (Nat.le_div_iff_mul_le (by omega)).2 (by omega)
  have hB0 : (0 : Int) < g.B := by exact_mod_cast g.B_pos
  have hNB' : (g.N : Int) * g.B ≤ 2 ^ 30 := by exact_mod_cast hNB
  set mm : Int := if 3 ≤ g.N then 1 else 0 with hmm
  obtain ⟨a', k1, k2, k3, k4, k5, k6, k7, k8, k9⟩ := wav_start (g := g) (R := R) (mm := mm) hN hNB a hb hm past junk hj hg hdep hda hn hc hc' hD hdata
    (by omega) hset (by intro h; rw [hstart] at h; cases h) (by rw [hmm]; split <;> omega) (by rw [hmm]; split <;> omega)
  clear hj hn hD hdep
  obtain ⟨hst, c, k, L, hcs, hw, hk1, hk2⟩ := k9.live k2
  have hs : startFrame a.rd = 0 := by unfold startFrame; rw [hstart]; rfl
  rw [hs, zero_mul, add_zero] at k8
  obtain ⟨frame, a'', f1, f2, f3⟩ := first_frame hfp hB hNB hb hm k2 hst hc (by omega) hF1 (by
    have h1 : ((nch : Int)) * ((D / 2 / nch : Nat) + R + 1) = (D / 2 / nch : Nat) * nch + nch * (R + 1) := by ring
    have h2 : (nch : Int) * (R + 1) ≤ 32767 * (2 ^ 15 + 1) := by
      have hR0 : 0 ≤ R := by
        have : (0 : ℚ) ≤ R := le_trans hset.rate0 hset.rateR
        exact_mod_cast this
      exact mul_le_mul (by omega) (by omega) (by omega) (by omega)
    rw [h1]; omega) (by omega) k8 hcs hw hk1 hk2 hmm nullOk fuel
  have hget : ∀ ch < nch, (((off + 8) / 2 + ch) / g.B = (off + 8) / 2 / g.B ∨ 3 ≤ g.N ∧ nch ≤ g.B) → frame.getD ch 0 = dataSample m (off + 8) ch := by
    intro ch hch hor
    rw [f3 ch hch hor, ← fileSample_data m (start := off + 8) (by omega)]
  exact ⟨a', frame, a'', k1, k3, by rw [k5, Nat.div_div_eq_div_mul], f1, f2, hget 0 (by omega) (Or.inl rfl), hget⟩

/-- Both on the example file at half speed, with the SD card reader's buffers. -/
example : ∃ a', exHalf.playWav sdGeo (some ⟨exWav, 0, false⟩) (List.replicate 36 7) = .ok (true, a') ∧ ∀ als : List (Nat → Bool),
    let told := soundPlay (fun i ch => dataSample exWav (48 + 8) (i * 2 + ch)) 2 (8 / 2 / 2 : Nat)
      ((if exHalf.rd.playStart = .arbitrary then exHalf.rd.playbackStart else 0) + exHalf.rd.rem) exHalf.rd.rate (some 0) als
    ∃ a'', a'.ticks Fp.ieee sdGeo true (5 + 2) als = .ok (told.1, a'') ∧ a''.rd.playing = told.2.isSome ∧ ∀ c, a''.src = some c → c.fails = 0 :=
  C59_end_to_end Fp.ieee ieee_representable sdGeo (by decide) (by decide) exHalf exWav_bytes (by decide) false (List.replicate 36 7) (by decide) (by decide)
    (by decide) (off := 48) ⟨Or.inr ⟨by decide, by decide⟩, by decide, by decide⟩ (by decide) (nch := 2) (D := 8) (by decide) (by decide) (by decide)
    (by decide) (by decide) (by decide) (R := 1) (mm := 1) exHalf_settings (p := 1)
    ⟨by norm_num, ⟨1, by norm_num [exHalf]⟩, by norm_num [exHalf, abs_of_pos], by norm_num [exHalf, abs_of_pos]⟩
    (by simpa [exHalf] using OnGrid.int 1 0) (by norm_num [exHalf]) (by intro h; cases h) (by decide) (by decide) (by decide) true (by decide)

/-- What it amounts to: at the first update, where only the left block can be had, nothing; at the second, the four frames and
silence; then nothing. -/
example : soundPlay (fun i ch => dataSample exWav (48 + 8) (i * 2 + ch)) 2 (8 / 2 / 2 : Nat) (((0 : Int) : ℚ) + 0) (1 / 2) (some 0)
      [fun c => c == 0, fun _ => true, fun _ => true] =
    ([{ allocated := [0], released := [0] },
      { allocated := [0, 1], transmitted := [([1, 1, 3, 3] ++ List.replicate 124 0, 0), ([2, 2, 4, 4] ++ List.replicate 124 0, 1)],
        released := [0, 1], event := some .close }, {}], none) := by decide +kernel

example : ∃ a' frame a'', exHalf.playWav sdGeo (some ⟨exWav, 0, false⟩) (List.replicate 36 7) = .ok (true, a') ∧ a'.rd.nch = (2 : Nat) ∧
    a'.rd.fileSamples = (8 / (2 * 2) : Nat) ∧ a'.read Fp.ieee sdGeo true (0 + 1) 1 = .ok ([frame], a'') ∧ frame.length = 2 ∧
    frame.getD 0 0 = dataSample exWav (48 + 8) 0 ∧
    ∀ ch < 2, (((48 + 8) / 2 + ch) / sdGeo.B = (48 + 8) / 2 / sdGeo.B ∨ 3 ≤ sdGeo.N ∧ 2 ≤ sdGeo.B) → frame.getD ch 0 = dataSample exWav (48 + 8) ch :=
  C06_parameters Fp.ieee ieee_representable sdGeo (by decide) (by decide) (by decide) exHalf exWav_bytes (by decide) false (List.replicate 36 7)
    (by decide) (by decide) (by decide) (off := 48) ⟨Or.inr ⟨by decide, by decide⟩, by decide, by decide⟩ (by decide) (nch := 2) (D := 8) (by decide)
    (by decide) (by decide) (by decide) (by decide) (by decide) (R := 1) (by decide) exHalf_settings rfl true 0

end TVP
