import Verif.Lemmas.LoopStreamRev
import Verif.Props.LoopStream

/-!
# Property C60, backwards: streaming a loop repeated backwards has no dropouts
-/

namespace TVP
open Spec

/-- Settings for plain backward playback of a repeated loop at a rate of at most `R`.  Started at the end of the sound, the
reader goes down to the beginning of the sound (src/ResamplingReader.h:380-382), so that the loop must start there. -/
structure RepeatBackSettings (fp : Fp) (r : Rd) (R : Int) : Prop where
  plain : PlainSettings r
  loop : r.loopType = .repeat
  rateF : fp.f.rnd r.rate < 0
  rateR : -R ≤ r.rate
  flt : IsFloat 53 (-1074) r.rem
  frac : |r.rem| < 1
  whole : r.playStart = .sample → r.loopStart = 0

theorem RepeatBackSettings.R0 {fp : Fp} {r : Rd} {R : Int} (h : RepeatBackSettings fp r R) : 0 ≤ R := by
  have h0 : r.rate < 0 := by
    by_contra hc
    exact absurd (fp.f.nonneg (not_lt.1 hc)) (not_le.2 h.rateF)
  have : (0 : ℚ) ≤ R := by linarith [h.rateR]
  exact_mod_cast this

/-- The loop from frame `A` to frame `Z` lies in the file and is at least as many frames long as there are channels; playback
starts at sample `P`, not below the loop, with a frame in one block of which at least half is in the file; and, in blocks: either
the loop has at least as many blocks as there are buffers, and so has the way from the start of the loop to `P`; or playback starts
in the last block of the loop, before which there are as many blocks in the file as there are other buffers. -/
structure GoodLoopBack (g : Geo) (m : List Nat) (H nch A Z P : Int) : Prop where
  A0 : 0 ≤ A
  AZ : A + nch ≤ Z
  file : 2 * (H + Z * nch) ≤ m.length
  above : H + A * nch ≤ P
  within : P + nch ≤ (m.length : Int) / 2
  block : (P + nch - 1) / g.B = P / g.B
  half : 2 * (P / g.B * g.B) + g.B ≤ m.length
  room : ((H + A * nch) / g.B + g.N - 1 ≤ P / g.B ∧ (H + A * nch) / g.B + g.N - 1 ≤ (H + Z * nch) / g.B) ∨
    (P / g.B = (H + Z * nch) / g.B ∧ (g.N : Int) - 1 ≤ P / g.B)

theorem RepRev.speed {fp : Fp} {R S P E nch : Int} {r : Rd} {v : ℚ} (h : RepRev fp R S P E nch r) (hv : SpeedsBack fp R r v) :
    RepRev fp R S P E nch { r with rate := v } :=
  ⟨⟨h.plain.dual, h.plain.interp, h.plain.cfOn, h.plain.nch⟩, h.loop, hv.1, hv.2.1, h.flt, h.frac, h.chans, h.bottom, h.wrap, h.top, h.low⟩

theorem rep_start_back {m : List Nat} {g : Geo} {mm : Int} {fp : Fp} (hfp : Representable fp) (hB : g.B < 16384) (hNB : g.N * g.B ≤ 2 ^ 30)
    (hb : IsBytes m) (hm : m.length < 2 ^ 31) (hmm0 : 0 ≤ mm) (hmm : 2 * mm + 5 ≤ g.N) {R : Int} {r : Rd} {f : Dev} (hf : f.bytes = m)
    (hsz : r.fileSize = m.length) (hset : RepeatBackSettings fp r R) (hH : 0 ≤ r.header) (hn : 0 < r.nch) {P : Int}
    (hP : StartsBackAt r ((m.length : Int) / 2) r.header r.loopFinish r.nch P)
    (hloop : GoodLoopBack g m r.header r.nch r.loopStart r.loopFinish P) (hadv : 128 * (r.nch * (R + 1)) + r.nch * r.nch ≤ mm * g.B)
    (nullOk : Bool) {fuel : Nat} (hfu : g.N ≤ fuel + 2) :
    ∃ a, playFinish g r f = .ok (true, a) ∧ a.rd.playing = true ∧ a.rd.loopType = .repeat ∧ a.rd.nch = r.nch ∧ a.rd.header = r.header ∧
      a.rd.loopStart = r.loopStart ∧ a.rd.loopFinish = r.loopFinish ∧
      a.rd.pos1 = P ∧ a.rd.rate = r.rate ∧ a.rd.rem = r.rem ∧ LikeInMemoryAt fp g nullOk (fuel + 2) a m (SpeedsBack fp R) := by
  have hB0 : (0 : Int) < g.B := by exact_mod_cast g.B_pos
  have hNB' : (g.N : Int) * g.B ≤ 2 ^ 30 := by exact_mod_cast hNB
  have hR := hset.R0
  obtain ⟨hA, hAZ, hE, hP0, hPE, hblock, hhalf, hroom⟩ := hloop
  have hP' : backStart r ((m.length : Int) / 2) r.loopFinish = P := by
    unfold backStart
    unfold StartsBackAt at hP
    cases hps : r.playStart <;> simp only [hps] at hP ⊢ <;> exact hP.symm
  have h1 : mm * g.B ≤ g.N * g.B := mul_le_mul_of_nonneg_right (by omega) (le_of_lt hB0)
  have h2 : R + 1 ≤ r.nch * (R + 1) := le_mul_of_one_le_left (by omega) (by omega)
  have hnn : 0 ≤ r.nch * r.nch := mul_nonneg (le_of_lt hn) (le_of_lt hn)
  have hSP : r.header + r.loopStart * r.nch ≤ r.header + (r.loopFinish - r.nch) * r.nch := by
    have := mul_le_mul_of_nonneg_right (show r.loopStart ≤ r.loopFinish - r.nch by omega) (le_of_lt hn)
    omega
  have hPF : r.header + (r.loopFinish - r.nch) * r.nch + r.nch * r.nch = r.header + r.loopFinish * r.nch := by ring
  have hn1 : r.nch ≤ r.nch * r.nch := le_mul_of_one_le_left (le_of_lt hn) (by omega)
  have hAn : 0 ≤ r.loopStart * r.nch := mul_nonneg hA (le_of_lt hn)
  obtain ⟨E, hEd⟩ : ∃ E, E = min ((m.length : Int) / 2)
      (if (r.header + r.loopStart * r.nch) / g.B + g.N - 1 ≤ P / g.B ∧
          (r.header + r.loopStart * r.nch) / g.B + g.N - 1 ≤ (r.header + r.loopFinish * r.nch) / g.B then (m.length : Int) / 2
        else ((r.header + r.loopFinish * r.nch) / g.B + 1) * g.B) := ⟨_, rfl⟩
  have hFlt : r.header + r.loopFinish * r.nch < ((r.header + r.loopFinish * r.nch) / g.B + 1) * g.B := Int.lt_ediv_add_one_mul_self _ hB0
  have hE2 : 2 * E ≤ m.length := by
    have : E ≤ (m.length : Int) / 2 := by rw [hEd]; exact min_le_left _ _
    omega
  have hPE' : P + r.nch ≤ E := by
    rw [hEd]
    refine le_min hPE ?_
    split
    · exact hPE
    · rename_i hlong
      rcases hroom with h | ⟨h, _⟩
      · exact absurd h hlong
      · rw [← h, ← hblock]
        have := Int.lt_ediv_add_one_mul_self (P + r.nch - 1) hB0
        omega
  have hWE : r.header + (r.loopFinish - r.nch) * r.nch + r.nch ≤ E := by
    rw [hEd]
    refine le_min (by omega) ?_
    split <;> omega
  obtain ⟨a, c, k1, k2, k3, k4, k4a, k4b, k4c, k5, k6, k7, k8, k9, k10, k11, k12, k13⟩ := playFinish_back (g := g) (fp := fp) (R := R) (E := E) hm hf hsz hH hn
    hset.plain.dual hset.plain.interp hset.loop hR hset.rateF hset.rateR hset.flt hset.frac hA hset.whole hAZ hE hP' hP0 hPE' hE2
  refine ⟨a, k1, k2, k3.loop, k3.chans, k4a, k4b, k4c, k4, k5, k6, ?_⟩
  obtain ⟨S, hS⟩ : ∃ S, S = r.header + r.loopStart * r.nch := ⟨_, rfl⟩
  obtain ⟨W, hW⟩ : ∃ W, W = r.header + (r.loopFinish - r.nch) * r.nch := ⟨_, rfl⟩
  obtain ⟨F, hF⟩ : ∃ F, F = r.header + r.loopFinish * r.nch := ⟨_, rfl⟩
  rw [← hS, ← hW] at hSP
  rw [← hW, ← hF] at hPF
  rw [← hW] at hWE
  rw [← hS, ← hW] at k3
  rw [← hS] at k12 hP0
  rw [← hF] at k13 hE hFlt
  rw [← hS, ← hF] at hroom hEd
  have hS0 : 0 ≤ S := by omega
  have hs0 : 0 ≤ S / g.B := Int.ediv_nonneg hS0 (le_of_lt hB0)
  have hsP : S / g.B ≤ P / g.B := Int.ediv_le_ediv hB0 hP0
  have hPm : P / g.B ≤ (m.length : Int) / 2 / g.B := Int.ediv_le_ediv hB0 (by omega)
  have hFm : F / g.B ≤ (m.length : Int) / 2 / g.B := Int.ediv_le_ediv hB0 (by omega)
  have hmax : ((m.length : Int) / 2 / g.B + 1) * g.B ≤ 2147483647 := by
    have := Int.ediv_mul_le ((m.length : Int) / 2) (ne_of_gt hB0)
    rw [add_mul, one_mul]; omega
  have hreach : Reached m g c := Reached.fresh' k8 k9
  by_cases hlong : S / g.B + g.N - 1 ≤ P / g.B ∧ S / g.B + g.N - 1 ≤ F / g.B
  · -- a long loop
    obtain ⟨hl1, hl2⟩ := hlong
    obtain ⟨hw, hfl⟩ := RLWin.preLoad (m := m) (g := g) (c := c) (i := P) (by omega) hreach k9 (by omega) (by omega) hhalf
      (s := S / g.B) (f := F / g.B) (M := (m.length : Int) / 2 / g.B)
      ⟨k11, k13, Or.inl k12, hs0, hsP, hPm, hFm, by omega⟩ (by omega)
    have hlive : LongBack fp m g mm R S W F E r.nch ((m.length : Int) / 2 / g.B) a.rd (c.preLoad g P false) := by
      refine ⟨k3, _, 0, hw, le_refl _, by omega, ?_⟩
      rw [rblk_zero hsP]
      unfold wrapDown
      rw [if_neg (by omega), k4, ← hblock]
      congr 1; ring
    exact likeAt_along hb hm (LongBack.keepsUp (o := r.nch * r.nch) hfp hB hm hmm hR (by omega) hS0 hSP hn (by omega) hWE
        (by omega) hadv (by omega) hE2 hmax hfu)
      (fun r' c' v hp hl hv => ⟨Or.inl (hv.2.2 hp), hl.rd.speed hv, hl.win⟩) (by rw [k3.chans]; exact hn) k7 (hfl.trans k10) hlive
  · -- a short one
    rcases hroom with h | ⟨hps, hfull⟩
    · exact absurd h hlong
    have hshort : F / g.B - g.N + 1 ≤ S / g.B := by
      rw [hps] at hlong
      omega
    rw [if_neg hlong] at hEd
    obtain ⟨hw, hfl⟩ := RLWin.preLoad (m := m) (g := g) (c := c) (i := P) (by omega) hreach k9 (by omega) (by omega) hhalf
      (s := F / g.B - g.N + 1) (f := F / g.B) (M := (m.length : Int) / 2 / g.B)
      ⟨k11, k13, Or.inr ⟨by ring, by rw [hps], by rw [k12]; exact hshort⟩, by omega, by omega, hPm, hFm, by omega⟩ (by omega)
    have hlive : ShortBack fp m g R S W F E r.nch ((m.length : Int) / 2 / g.B) a.rd (c.preLoad g P false) :=
      ⟨k3, _, hw, by omega⟩
    exact likeAt_along hb hm (ShortBack.keepsUp hfp hB hm hR (by omega) hS0 hSP hWE
        (by omega) hE2 (by rw [hEd]; exact min_le_right _ _) hmax hshort hfu)
      (fun r' c' v hp hl hv => ⟨Or.inl (hv.2.2 hp), hl.rd.speed hv, hl.win⟩) (by rw [k3.chans]; exact hn) k7 (hfl.trans k10) hlive

theorem setNumChannels_repeatBack {fp : Fp} {r : Rd} {R : Int} (h : RepeatBackSettings fp r R) (n : Int) :
    RepeatBackSettings fp (r.setNumChannels n) R := by
  unfold Rd.setNumChannels
  split <;> exact ⟨⟨h.plain.dual, h.plain.interp⟩, h.loop, h.rateF, h.rateR, h.flt, h.frac, h.whole⟩

/-- **C72** (loops repeated backwards, raw files).  C60 when the program changes the speed between updates, except when the position has run
below the first frame of the sound. -/
theorem C72_loop_back_raw_partial (fp : Fp) (hfp : Representable fp) (g : Geo) (hB : g.B < 16384) (hNB : g.N * g.B ≤ 2 ^ 30) (a : FileReader) {m : List Nat}
    (hb : IsBytes m) (hm : m.length < 2 ^ 31) (past : Bool) {nch : Nat} (hc : 1 ≤ nch) (hc' : nch ≤ 32767) {R mm : Int}
    (hset : RepeatBackSettings fp a.rd R) (hhead : a.rd.header = 0) {P : Int}
    (hP : StartsBackAt a.rd ((m.length : Int) / 2) 0 a.rd.loopFinish nch P) (hloop : GoodLoopBack g m 0 nch a.rd.loopStart a.rd.loopFinish P)
    (hmm0 : 0 ≤ mm) (hmm : 2 * mm + 5 ≤ g.N) (hadv : 128 * (nch * (R + 1)) + nch * nch ≤ mm * g.B) (nullOk : Bool) {fuel : Nat} (hf : g.N ≤ fuel + 2) :
    ∃ a', a.playRaw g (some ⟨m, 0, past⟩) nch = .ok (true, a') ∧ a'.rd.playing = true ∧ a'.rd.loopType = .repeat ∧ a'.rd.nch = nch ∧ a'.rd.header = 0 ∧
      a'.rd.loopStart = a.rd.loopStart ∧ a'.rd.loopFinish = a.rd.loopFinish ∧ a'.rd.pos1 = P ∧ a'.rd.rate = a.rd.rate ∧
      a'.rd.rem = a.rd.rem ∧ LikeInMemoryAt fp g nullOk (fuel + 2) a' m (SpeedsBack fp R) := by
  have hset' : RepeatBackSettings fp (a.close.rd.setNumChannels nch) R :=
    setNumChannels_repeatBack (r := a.close.rd) ⟨⟨hset.plain.dual, hset.plain.interp⟩, hset.loop, hset.rateF, hset.rateR, hset.flt, hset.frac, hset.whole⟩ nch
  obtain ⟨s1, s2, s3, s4, s5, _⟩ := setNumChannels_rest a.close.rd nch
  obtain ⟨u1, u2⟩ := setNumChannels_loop a.close.rd nch
  have hn := setNumChannels_nch_small a.close.rd (n := nch) (by omega) (by omega)
  have hsz : i32 (m.length : Int) = m.length := by unfold i32; omega
  unfold FileReader.playRaw FileReader.playFile
  simp only [Bool.false_eq_true, if_false, Dev.size]
  rw [hsz]
  generalize a.close.rd.setNumChannels nch = r0 at *
  obtain ⟨r1, hr1⟩ : ∃ r1 : Rd, r1 = { r0 with fileSize := (m.length : Int), fileSamples := (m.length : Int).tdiv 2 } := ⟨_, rfl⟩
  rw [← hr1]
  have t1 : r1.header = 0 := by rw [hr1]; exact s1.trans hhead
  have t3 : r1.nch = nch := by rw [hr1]; exact hn
  have t4 : r1.fileSize = m.length := by rw [hr1]
  have t5 : RepeatBackSettings fp r1 R := by
    rw [hr1]; exact ⟨⟨hset'.plain.dual, hset'.plain.interp⟩, hset'.loop, hset'.rateF, hset'.rateR, hset'.flt, hset'.frac, hset'.whole⟩
  have t6 : r1.playStart = a.rd.playStart := by rw [hr1]; exact s2
  have t7 : r1.playbackStart = a.rd.playbackStart := by rw [hr1]; exact s3
  have t8 : r1.rate = a.rd.rate := by rw [hr1]; exact s4
  have t9 : r1.rem = a.rd.rem := by rw [hr1]; exact s5
  have t10 : r1.loopStart = a.rd.loopStart := by rw [hr1]; exact u1
  have t11 : r1.loopFinish = a.rd.loopFinish := by rw [hr1]; exact u2
  clear hr1 hsz
  obtain ⟨a', k1, k2, k3, k4, k5, k6, k7, k8, k9, k10, k11⟩ := rep_start_back (r := r1) (f := ⟨m, 0, past⟩) (P := P) hfp hB hNB hb hm hmm0 hmm
    rfl t4 t5 (le_of_eq t1.symm) (by rw [t3]; omega) (by unfold StartsBackAt at hP ⊢; rw [t1, t3, t6, t7, t11]; exact hP)
    (by rw [t1, t3, t10, t11]; exact hloop) (by rw [t3]; exact hadv) nullOk hf
  exact ⟨a', k1, k2, k3, k4.trans t3, k5.trans t1, k6.trans t10, k7.trans t11, k8, k9.trans t8, k10.trans t9, k11⟩

/-- **C60** (raw files backwards, what does hold).  Playing a raw file backwards with a repeated loop set beforehand, without
interpolation, at any rate down to `-R` for which an update moves by at most `mm` blocks, with at least `2 mm + 5` buffers, is the
same as playing it from memory, for ever.  Missing are the loops and starts excluded by `GoodLoopBack` and the setting `whole`; see
`C60_back_half_refuted`, `C60_back_fault_refuted` and `C60_back_whole_refuted`. -/
theorem C60_back_raw_partial (fp : Fp) (hfp : Representable fp) (g : Geo) (hB : g.B < 16384) (hNB : g.N * g.B ≤ 2 ^ 30) (a : FileReader) {m : List Nat}
    (hb : IsBytes m) (hm : m.length < 2 ^ 31) (past : Bool) {nch : Nat} (hc : 1 ≤ nch) (hc' : nch ≤ 32767) {R mm : Int}
    (hset : RepeatBackSettings fp a.rd R) (hhead : a.rd.header = 0) {P : Int}
    (hP : StartsBackAt a.rd ((m.length : Int) / 2) 0 a.rd.loopFinish nch P) (hloop : GoodLoopBack g m 0 nch a.rd.loopStart a.rd.loopFinish P)
    (hmm0 : 0 ≤ mm) (hmm : 2 * mm + 5 ≤ g.N) (hadv : 128 * (nch * (R + 1)) + nch * nch ≤ mm * g.B) (nullOk : Bool) {fuel : Nat} (hf : g.N ≤ fuel + 2) :
    ∃ a', a.playRaw g (some ⟨m, 0, past⟩) nch = .ok (true, a') ∧ a'.rd.playing = true ∧ a'.rd.loopType = .repeat ∧ a'.rd.nch = nch ∧ a'.rd.header = 0 ∧
      a'.rd.loopStart = a.rd.loopStart ∧ a'.rd.loopFinish = a.rd.loopFinish ∧ a'.rd.pos1 = P ∧ a'.rd.rate = a.rd.rate ∧
      a'.rd.rem = a.rd.rem ∧ LikeInMemory fp g nullOk (fuel + 2) a' m := by
  obtain ⟨a', h0, h1, h2, h3, h4, h5, h6, h7, h8, h9, h⟩ := C72_loop_back_raw_partial fp hfp g hB hNB a hb hm past hc hc' hset hhead hP hloop hmm0 hmm hadv nullOk hf
  exact ⟨a', h0, h1, h2, h3, h4, h5, h6, h7, h8, h9, h.plain⟩

/-- **C72** (loops repeated backwards, WAV files).  Likewise. -/
theorem C72_loop_back_wav_partial (fp : Fp) (hfp : Representable fp) (g : Geo) (hB : g.B < 16384) (hNB : g.N * g.B ≤ 2 ^ 30) (a : FileReader) {m : List Nat}
    (hb : IsBytes m) (hm : m.length < 2 ^ 31) (past : Bool) (junk : List Nat) (hj : junk.length = 36) (hg : GoodHeader m)
    (hdep : leVal (slice m 34 2) = 16) {off : Nat} (hda : DataAt m off) {nch : Nat} (hn : leVal (slice m 22 2) = nch) (hc : 1 ≤ nch) (hc' : nch ≤ 32767)
    {R mm : Int} (hset : RepeatBackSettings fp a.rd R) {P : Int}
    (hP : StartsBackAt a.rd ((m.length : Int) / 2) ((off + 8) / 2 : Nat) a.rd.loopFinish nch P)
    (hloop : GoodLoopBack g m ((off + 8) / 2 : Nat) nch a.rd.loopStart a.rd.loopFinish P)
    (hmm0 : 0 ≤ mm) (hmm : 2 * mm + 5 ≤ g.N) (hadv : 128 * (nch * (R + 1)) + nch * nch ≤ mm * g.B) (nullOk : Bool) {fuel : Nat} (hf : g.N ≤ fuel + 2) :
    ∃ a', a.playWav g (some ⟨m, 0, past⟩) junk = .ok (true, a') ∧ a'.rd.playing = true ∧ a'.rd.loopType = .repeat ∧ a'.rd.nch = nch ∧
      a'.rd.header = ((off + 8) / 2 : Nat) ∧ a'.rd.loopStart = a.rd.loopStart ∧ a'.rd.loopFinish = a.rd.loopFinish ∧
      a'.rd.pos1 = P ∧ a'.rd.rate = a.rd.rate ∧ a'.rd.rem = a.rd.rem ∧ LikeInMemoryAt fp g nullOk (fuel + 2) a' m (SpeedsBack fp R) := by
  have hsz : i32 (m.length : Int) = m.length := by unfold i32; omega
  obtain ⟨f', hp, hfb, _⟩ := playParseWav_good
    (r := { a.close.rd with fileSize := i32 (m.length : Int) }) (past := past) hj hb hm hg hdep hda
  have hch : u16 (parsed m).numChannels = nch := by
    simp only [parsed]; rw [u16_i16, hn]; unfold u16; omega
  rw [hch] at hp
  have hset' : RepeatBackSettings fp ({ a.close.rd with fileSize := i32 (m.length : Int) }.setNumChannels nch) R :=
    setNumChannels_repeatBack (r := { a.close.rd with fileSize := i32 (m.length : Int) })
      ⟨⟨hset.plain.dual, hset.plain.interp⟩, hset.loop, hset.rateF, hset.rateR, hset.flt, hset.frac, hset.whole⟩ nch
  obtain ⟨s1, s2, s3, s4, s5, s6⟩ := setNumChannels_rest { a.close.rd with fileSize := i32 (m.length : Int) } nch
  obtain ⟨u1, u2⟩ := setNumChannels_loop { a.close.rd with fileSize := i32 (m.length : Int) } nch
  have hn' := setNumChannels_nch_small { a.close.rd with fileSize := i32 (m.length : Int) } (n := nch) (by omega) (by omega)
  simp only at s1 s2 s3 s4 s5 s6 u1 u2
  have s6' := s6.trans hsz
  clear s6
  unfold FileReader.playWav FileReader.playFile
  simp only [if_true, Dev.size]
  rw [hp]
  simp only [ok_bind, Bool.not_true, Bool.false_eq_true, if_false]
  clear hp
  generalize Rd.setNumChannels { a.close.rd with fileSize := i32 (m.length : Int) } nch = r0 at *
  generalize hFS : ((leVal (slice m (off + 4) 4) / 2 : Nat) : Int) = FS
  obtain ⟨r1, hr1⟩ : ∃ r1 : Rd, r1 = { r0 with header := ((off + 8) / 2 : Nat), fileSamples := FS } := ⟨_, rfl⟩
  rw [← hr1]
  have t1 : r1.header = ((off + 8) / 2 : Nat) := by rw [hr1]
  have t3 : r1.nch = nch := by rw [hr1]; exact hn'
  have t4 : r1.fileSize = m.length := by rw [hr1]; exact s6'
  have t5 : RepeatBackSettings fp r1 R := by
    rw [hr1]; exact ⟨⟨hset'.plain.dual, hset'.plain.interp⟩, hset'.loop, hset'.rateF, hset'.rateR, hset'.flt, hset'.frac, hset'.whole⟩
  have t6 : r1.playStart = a.rd.playStart := by rw [hr1]; exact s2
  have t7 : r1.playbackStart = a.rd.playbackStart := by rw [hr1]; exact s3
  have t8 : r1.rate = a.rd.rate := by rw [hr1]; exact s4
  have t9 : r1.rem = a.rd.rem := by rw [hr1]; exact s5
  have t10 : r1.loopStart = a.rd.loopStart := by rw [hr1]; exact u1
  have t11 : r1.loopFinish = a.rd.loopFinish := by rw [hr1]; exact u2
  clear hr1
  obtain ⟨a', k1, k2, k3, k4, k5, k6, k7, k8, k9, k10, k11⟩ := rep_start_back (r := r1) (f := f') (P := P) hfp hB hNB hb hm hmm0 hmm
    hfb t4 t5 (by rw [t1]; exact Int.natCast_nonneg _) (by rw [t3]; omega) (by unfold StartsBackAt at hP ⊢; rw [t1, t3, t6, t7, t11]; exact hP)
    (by rw [t1, t3, t10, t11]; exact hloop) (by rw [t3]; exact hadv) nullOk hf
  exact ⟨a', k1, k2, k3, k4.trans t3, k5.trans t1, k6.trans t10, k7.trans t11, k8, k9.trans t8, k10.trans t9, k11⟩

/-- **C60** (WAV files backwards, what does hold).  The same for WAV files. -/
theorem C60_back_wav_partial (fp : Fp) (hfp : Representable fp) (g : Geo) (hB : g.B < 16384) (hNB : g.N * g.B ≤ 2 ^ 30) (a : FileReader) {m : List Nat}
    (hb : IsBytes m) (hm : m.length < 2 ^ 31) (past : Bool) (junk : List Nat) (hj : junk.length = 36) (hg : GoodHeader m)
    (hdep : leVal (slice m 34 2) = 16) {off : Nat} (hda : DataAt m off) {nch : Nat} (hn : leVal (slice m 22 2) = nch) (hc : 1 ≤ nch) (hc' : nch ≤ 32767)
    {R mm : Int} (hset : RepeatBackSettings fp a.rd R) {P : Int}
    (hP : StartsBackAt a.rd ((m.length : Int) / 2) ((off + 8) / 2 : Nat) a.rd.loopFinish nch P)
    (hloop : GoodLoopBack g m ((off + 8) / 2 : Nat) nch a.rd.loopStart a.rd.loopFinish P)
    (hmm0 : 0 ≤ mm) (hmm : 2 * mm + 5 ≤ g.N) (hadv : 128 * (nch * (R + 1)) + nch * nch ≤ mm * g.B) (nullOk : Bool) {fuel : Nat} (hf : g.N ≤ fuel + 2) :
    ∃ a', a.playWav g (some ⟨m, 0, past⟩) junk = .ok (true, a') ∧ a'.rd.playing = true ∧ a'.rd.loopType = .repeat ∧ a'.rd.nch = nch ∧
      a'.rd.header = ((off + 8) / 2 : Nat) ∧ a'.rd.loopStart = a.rd.loopStart ∧ a'.rd.loopFinish = a.rd.loopFinish ∧
      a'.rd.pos1 = P ∧ a'.rd.rate = a.rd.rate ∧ a'.rd.rem = a.rd.rem ∧ LikeInMemory fp g nullOk (fuel + 2) a' m := by
  obtain ⟨a', h0, h1, h2, h3, h4, h5, h6, h7, h8, h9, h⟩ := C72_loop_back_wav_partial fp hfp g hB hNB a hb hm past junk hj hg hdep hda hn hc hc' hset hP hloop hmm0 hmm hadv nullOk hf
  exact ⟨a', h0, h1, h2, h3, h4, h5, h6, h7, h8, h9, h.plain⟩

/-! ## Examples -/

/-- A player set to repeat frames 500 to `z` backwards at one and a half times the speed, starting at the given frame. -/
def exRepeatBack (z q : Int) : FileReader := { rd := { rate := -3 / 2, loopType := .repeat, loopStart := 500, loopFinish := z, playStart := .arbitrary, playbackStart := q } }

theorem exRepeatBack_settings (z q : Int) : RepeatBackSettings Fp.ieee (exRepeatBack z q).rd 2 :=
  ⟨⟨rfl, rfl⟩, rfl, by show Fp.ieee.f.rnd (-3 / 2) < 0; decide +kernel, by norm_num [exRepeatBack], by
    show IsFloat 53 (-1074) 0
    simpa using Rounding.isFloat_of (p := 53) (emin := -1074) (by norm_num) (m := 0) (e := 0) (by norm_num) (by norm_num), by norm_num [exRepeatBack],
    fun h => by cases h⟩

/-- A long loop in a stereo file of 100000 bytes, from above the loop. -/
example : ∃ a', (exRepeatBack 20000 24000).playRaw sdGeo (some ⟨List.replicate 100000 5, 0, false⟩) (2 : Nat) = .ok (true, a') ∧ a'.rd.playing = true ∧
    a'.rd.loopType = .repeat ∧ a'.rd.nch = (2 : Nat) ∧ a'.rd.header = 0 ∧ a'.rd.loopStart = 500 ∧ a'.rd.loopFinish = 20000 ∧ a'.rd.pos1 = 48000 ∧
    a'.rd.rate = -3 / 2 ∧ a'.rd.rem = 0 ∧ LikeInMemory Fp.ieee sdGeo true (6 + 2) a' (List.replicate 100000 5) :=
  C60_back_raw_partial Fp.ieee ieee_representable sdGeo (by decide) (by decide) (exRepeatBack 20000 24000) (by intro b hb; rw [(List.mem_replicate.1 hb).2]; decide)
    (by rw [List.length_replicate]; decide) false (by decide) (by decide) (exRepeatBack_settings 20000 24000) rfl
    (P := 48000) (by show (48000 : Int) = _; decide)
    ⟨by decide, by decide, by rw [List.length_replicate]; decide, by decide, by rw [List.length_replicate]; decide, by decide, by rw [List.length_replicate]; decide,
      Or.inl ⟨by decide, by decide⟩⟩ (mm := 1) (by decide) (by decide) (by decide) true (by decide)

/-- A loop of ten frames near the end of a file of 40000 bytes. -/
def exShortBack : FileReader := { rd := { rate := -3 / 2, loopType := .repeat, loopStart := 19000, loopFinish := 19010, playStart := .loop } }

theorem exShortBack_settings : RepeatBackSettings Fp.ieee exShortBack.rd 2 :=
  ⟨⟨rfl, rfl⟩, rfl, by show Fp.ieee.f.rnd (-3 / 2) < 0; decide +kernel, by norm_num [exShortBack], by
    show IsFloat 53 (-1074) 0
    simpa using Rounding.isFloat_of (p := 53) (emin := -1074) (by norm_num) (m := 0) (e := 0) (by norm_num) (by norm_num), by norm_num [exShortBack],
    fun h => by cases h⟩

example : ∃ a', exShortBack.playRaw sdGeo (some ⟨List.replicate 40000 5, 0, false⟩) (1 : Nat) = .ok (true, a') ∧ a'.rd.playing = true ∧
    a'.rd.loopType = .repeat ∧ a'.rd.nch = (1 : Nat) ∧ a'.rd.header = 0 ∧ a'.rd.loopStart = 19000 ∧ a'.rd.loopFinish = 19010 ∧ a'.rd.pos1 = 19009 ∧
    a'.rd.rate = -3 / 2 ∧ a'.rd.rem = 0 ∧ LikeInMemory Fp.ieee sdGeo true (6 + 2) a' (List.replicate 40000 5) :=
  C60_back_raw_partial Fp.ieee ieee_representable sdGeo (by decide) (by decide) exShortBack (by intro b hb; rw [(List.mem_replicate.1 hb).2]; decide)
    (by rw [List.length_replicate]; decide) false (by decide) (by decide) exShortBack_settings rfl
    (P := 19009) (by show (19009 : Int) = _; decide)
    ⟨by decide, by decide, by rw [List.length_replicate]; decide, by decide, by rw [List.length_replicate]; decide, by decide, by rw [List.length_replicate]; decide,
      Or.inr ⟨by decide, by decide⟩⟩ (mm := 1) (by decide) (by decide) (by decide) true (by decide)

/-- The stereo WAV file of 40056 bytes, frames 0 to 8000 repeated backwards from the end of the loop. -/
def exWholeBack : FileReader := { rd := { rate := -3 / 2, loopType := .repeat, loopStart := 0, loopFinish := 8000, playStart := .loop } }

theorem exWholeBack_settings : RepeatBackSettings Fp.ieee exWholeBack.rd 2 :=
  ⟨⟨rfl, rfl⟩, rfl, by show Fp.ieee.f.rnd (-3 / 2) < 0; decide +kernel, by norm_num [exWholeBack], by
    show IsFloat 53 (-1074) 0
    simpa using Rounding.isFloat_of (p := 53) (emin := -1074) (by norm_num) (m := 0) (e := 0) (by norm_num) (by norm_num), by norm_num [exWholeBack],
    fun h => by cases h⟩

example : ∃ a', exWholeBack.playWav sdGeo (some ⟨exLongWav, 0, false⟩) (List.replicate 36 7) = .ok (true, a') ∧ a'.rd.playing = true ∧
    a'.rd.loopType = .repeat ∧ a'.rd.nch = (2 : Nat) ∧ a'.rd.header = ((48 + 8) / 2 : Nat) ∧ a'.rd.loopStart = 0 ∧ a'.rd.loopFinish = 8000 ∧
    a'.rd.pos1 = 16024 ∧ a'.rd.rate = -3 / 2 ∧ a'.rd.rem = 0 ∧ LikeInMemory Fp.ieee sdGeo true (6 + 2) a' exLongWav :=
  C60_back_wav_partial Fp.ieee ieee_representable sdGeo (by decide) (by decide) exWholeBack exLongWav_bytes (by rw [exLongWav_length]; decide) false
    (List.replicate 36 7) (by decide) (by decide +kernel) (by decide +kernel) (off := 48)
    ⟨Or.inr ⟨by decide +kernel, by decide +kernel⟩, by decide +kernel, by rw [exLongWav_length]; decide⟩ (nch := 2) (by decide +kernel) (by decide) (by decide)
    exWholeBack_settings (P := 16024) (by show (16024 : Int) = _; decide)
    ⟨by decide, by decide, by rw [exLongWav_length]; decide, by decide, by rw [exLongWav_length]; decide, by decide, by rw [exLongWav_length]; decide,
      Or.inl ⟨by decide, by decide⟩⟩ (mm := 1)
    (by decide) (by decide) (by decide) true (by decide)

/-! ## Where it fails -/

/-- What `n` updates of a player for an SD card do after starting a mono file of `len` bytes `b` at rate `v` with frames `s` to `z` repeated:
how often they find a sample not buffered. -/
def exBackMisses (len b : Nat) (v : ℚ) (s z : Int) (start : PlayStart) (n : Nat) : M (Option Nat) := do
  let (_, a) ← ({ rd := { loopType := .repeat, loopStart := s, loopFinish := z, rate := v, playStart := start } } : FileReader).playRaw sdGeo
    (some ⟨List.replicate len b, 0, false⟩) 1
  let (_, a) ← a.ticks Fp.ideal sdGeo true 8 (List.replicate n fun _ => true)
  return a.src.map (·.fails)

/-- **C60** is violated backwards for files that end in the first half of a block: 14346 samples (seven blocks and ten samples), all of them
repeated backwards at sixteen times the speed.  The preload stops after one buffer; of the 256 samples read by the first two updates
only one is buffered, -/
theorem C60_back_half_refuted : exBackMisses 28692 1 (-16) 0 14346 .loop 2 = .ok (some 255) := by
  decide +kernel

/-- and the ninth one, which reaches the beginning of the loop, looks for a buffer that does not exist. -/
theorem C60_back_fault_refuted : exBackMisses 28692 1 (-16) 0 14346 .loop 9 = .error .outOfBounds := by
  decide +kernel

/-- **C60** is violated for a loop that does not start at the beginning of the sound, played backwards from the end of the sound (the default):
frames 14336 to 16383 of 16384 are repeated at sixteen times the speed.  The reader goes on below the loop, to the beginning of the sound,
but the cache turns back to the end of the loop; when it gets there the first block of the file is not loaded. -/
theorem C60_back_whole_refuted : exBackMisses 32768 1 (-16) 14336 16383 .sample 8 = .ok (some 128) := by
  decide +kernel

end TVP
