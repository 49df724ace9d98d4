import Verif.Lemmas.LoopStream
import Verif.Props.StreamRev

/-!
# Property C60: streaming a repeated loop has no dropouts
-/

namespace TVP
open Spec

/-- Settings for plain forward playback of a repeated loop at a rate of at most `R`. -/
structure RepeatSettings (r : Rd) (R : Int) : Prop where
  plain : PlainSettings r
  loop : r.loopType = .repeat
  rate0 : 0 ≤ r.rate
  rateR : r.rate ≤ R
  flt : IsFloat 53 (-1074) r.rem
  frac : |r.rem| < 1

/-- The loop from frame `A` to frame `Z` lies in the file, playback starts at frame `q` before its end, and, in blocks: either
the loop has at least as many blocks as there are buffers, and so has the way from the start to the end of the loop; or
playback starts in the first block of the loop, from where the file goes on for at least as long as there are buffers (half of
the last one is enough). -/
structure GoodLoop (g : Geo) (m : List Nat) (H nch A Z q : Int) : Prop where
  A0 : 0 ≤ A
  AZ : A < Z
  file : 2 * (H + Z * nch) ≤ m.length
  q0 : 0 ≤ q
  q1 : q < Z
  room : ((H + q * nch) / g.B + g.N - 1 ≤ (H + Z * nch) / g.B ∧ (H + A * nch) / g.B + g.N - 1 ≤ (H + Z * nch) / g.B) ∨
    ((H + q * nch) / g.B = (H + A * nch) / g.B ∧ 2 * (((H + A * nch) / g.B + g.N - 2) * g.B) + g.B ≤ m.length)

theorem RepFwd.speed {R A Z H nch : Int} {r : Rd} {v : ℚ} (h : RepFwd R A Z H nch r) (hv : SpeedsTo R r v) :
    Inside r v ∧ RepFwd R A Z H nch { r with rate := v } := by
  obtain ⟨q, q1, q2, q3⟩ := h.pos
  have hn : 0 < nch := by rw [← h.chans]; exact h.plain.nch
  refine ⟨Or.inr ⟨hv.1, ?_⟩, ⟨⟨h.plain.dual, h.plain.interp, h.plain.cfOn, h.plain.nch⟩, h.loop, hv.1, hv.2, h.flt, h.frac, h.header, h.ls, h.lf, h.chans,
    q, q1, q2, q3⟩⟩
  rw [h.header, q3]
  have := mul_nonneg q1 (le_of_lt hn)
  omega

theorem rep_start {m : List Nat} {g : Geo} {mm : Int} {fp : Fp} (hfp : Representable fp) (hB : g.B < 16384) (hNB : g.N * g.B ≤ 2 ^ 30)
    (hb : IsBytes m) (hm : m.length < 2 ^ 31) (hmm0 : 0 ≤ mm) (hmm : 2 * mm + 5 ≤ g.N) {R : Int} {r : Rd} {f : Dev} (hf : f.bytes = m)
    (hsz : r.fileSize = m.length) (hset : RepeatSettings r R) (hH : 0 ≤ r.header) (hn : 0 < r.nch)
    (hloop : GoodLoop g m r.header r.nch r.loopStart r.loopFinish (firstFrame r)) (hadv : 128 * (r.nch * (R + 1)) ≤ mm * g.B)
    (nullOk : Bool) {fuel : Nat} (hfu : g.N ≤ fuel + 2) :
    ∃ a, playFinish g r f = .ok (true, a) ∧ a.rd.playing = true ∧ RepFwd R r.loopStart r.loopFinish r.header r.nch a.rd ∧
      a.rd.pos1 = r.header + firstFrame r * r.nch ∧ a.rd.rate = r.rate ∧ a.rd.rem = r.rem ∧ LikeInMemoryAt fp g nullOk (fuel + 2) a m (SpeedsTo R) := by
  have hB0 : (0 : Int) < g.B := by exact_mod_cast g.B_pos
  have hNB' : (g.N : Int) * g.B ≤ 2 ^ 30 := by exact_mod_cast hNB
  have hR : 0 ≤ R := by
    have : (0 : ℚ) ≤ R := le_trans hset.rate0 hset.rateR
    exact_mod_cast this
  obtain ⟨hA, hAZ, hE, hq0, hq1, hroom⟩ := hloop
  obtain ⟨a, c, k1, k2, k3, k4, k5, k6, k7, k8, k9, k10, k11, k12, k13⟩ := playFinish_rep (g := g) hm hf hsz hH hn hset.plain.dual hset.plain.interp hset.loop
    hset.rate0 hset.rateR hset.flt hset.frac hA hAZ hE hq0 hq1
  refine ⟨a, k1, k2, k3, k4, k5, k6, ?_⟩
  have h1 : mm * g.B ≤ g.N * g.B := mul_le_mul_of_nonneg_right (by omega) (le_of_lt hB0)
  have h2 : R + 1 ≤ r.nch * (R + 1) := le_mul_of_one_le_left (by omega) (by omega)
  have h3 : r.header + r.nch * (r.loopFinish + R + 1) = r.header + r.loopFinish * r.nch + r.nch * (R + 1) := by ring
  have hfits : r.header + r.nch * (r.loopFinish + R + 1) ≤ 2147483647 := by rw [h3]; omega
  have hqn : 0 ≤ firstFrame r * r.nch := mul_nonneg hq0 (le_of_lt hn)
  have hqn1 : firstFrame r * r.nch < r.loopFinish * r.nch := mul_lt_mul_of_pos_right hq1 hn
  have hAn : 0 ≤ r.loopStart * r.nch := mul_nonneg hA (le_of_lt hn)
  have hAn1 : r.loopStart * r.nch < r.loopFinish * r.nch := mul_lt_mul_of_pos_right hAZ hn
  have hs0 : 0 ≤ (r.header + r.loopStart * r.nch) / g.B := Int.ediv_nonneg (by omega) (le_of_lt hB0)
  have hp0 : 0 ≤ (r.header + firstFrame r * r.nch) / g.B := Int.ediv_nonneg (by omega) (le_of_lt hB0)
  have hpf : (r.header + firstFrame r * r.nch) / g.B ≤ (r.header + r.loopFinish * r.nch) / g.B := Int.ediv_le_ediv hB0 (by omega)
  have hfB : (r.header + r.loopFinish * r.nch) / g.B * g.B ≤ r.header + r.loopFinish * r.nch := Int.ediv_mul_le _ (ne_of_gt hB0)
  have hreach : Reached m g c := Reached.fresh' k8 k9
  have hi : a.rd.pos1 + g.N * g.B ≤ 2147483647 := by rw [k4]; omega
  have hi0 : 0 ≤ a.rd.pos1 := by rw [k4]; omega
  have hNpos : 1 ≤ g.N := by omega
  by_cases hlong : (r.header + firstFrame r * r.nch) / g.B + g.N - 1 ≤ (r.header + r.loopFinish * r.nch) / g.B ∧
      (r.header + r.loopStart * r.nch) / g.B + g.N - 1 ≤ (r.header + r.loopFinish * r.nch) / g.B
  · -- a long loop
    obtain ⟨hl1, hl2⟩ := hlong
    have hfull : 2 * (((r.header + firstFrame r * r.nch) / g.B + g.N - 2) * g.B) + g.B ≤ m.length := by
      have := mul_le_mul_of_nonneg_right (show (r.header + firstFrame r * r.nch) / g.B + g.N - 2 + 1 ≤ (r.header + r.loopFinish * r.nch) / g.B by omega) (le_of_lt hB0)
      rw [add_mul, one_mul] at this
      omega
    obtain ⟨hw, hfl⟩ := LWin.preLoad (m := m) (g := g) (c := c) (i := a.rd.pos1) (by omega) hNpos hreach k9 hi0 hi (by rw [k4]; exact hfull)
      (s := (r.header + r.loopStart * r.nch) / g.B) (f := (r.header + r.loopFinish * r.nch) / g.B)
      ⟨k11, k12, Or.inl k13, hs0, by rw [k4]; exact hp0, by rw [k4]; exact hpf, by omega⟩ (by rw [k4]; exact hl1)
    have hlive : LongLive m g mm R r.loopStart r.loopFinish r.header r.nch a.rd (c.preLoad g a.rd.pos1 true) := by
      refine ⟨k3, _, 0, hw, le_refl _, by omega, ?_⟩
      rw [blk_zero (by rw [k4]; exact hpf)]
      unfold wrapAt
      rw [if_neg (by rw [k4]; omega)]
    exact likeAt_along hb hm (LongLive.keepsUp hfp hB hm hmm (by omega) hH hA hAZ hn hR hfits hadv hE hfu)
      (fun r' c' v _ hl hv => ⟨(hl.rd.speed hv).1, (hl.rd.speed hv).2, hl.win⟩) (by rw [k3.chans]; exact hn) k7 (hfl.trans k10) hlive
  · -- a short one
    rcases hroom with h | ⟨hps, hfull⟩
    · exact absurd h hlong
    have hshort : (r.header + r.loopFinish * r.nch) / g.B ≤ (r.header + r.loopStart * r.nch) / g.B + g.N - 1 := by
      rw [hps] at hlong
      omega
    obtain ⟨hw, hfl⟩ := LWin.preLoad (m := m) (g := g) (c := c) (i := a.rd.pos1) (by omega) hNpos hreach k9 hi0 hi (by rw [k4, hps]; exact hfull)
      (s := (r.header + r.loopStart * r.nch) / g.B) (f := (r.header + r.loopStart * r.nch) / g.B + g.N - 1)
      ⟨k11, k12, Or.inr ⟨by ring, by rw [k4, hps], by rw [k13]; exact hshort⟩, hs0, by rw [k4]; exact hp0, by rw [k4, hps]; omega, by omega⟩ (by rw [k4, hps])
    have hlive : ShortLive m g R r.loopStart r.loopFinish r.header r.nch a.rd (c.preLoad g a.rd.pos1 true) := by
      refine ⟨k3, ?_, _, hw, by rw [k4, hps]⟩
      rw [k4, ← hps]
      exact Int.ediv_mul_le _ (ne_of_gt hB0)
    exact likeAt_along hb hm (ShortLive.keepsUp hfp hB hNB hm (by omega) hH hA hAZ hn hfits hE hshort hfu)
      (fun r' c' v _ hl hv => ⟨(hl.rd.speed hv).1, (hl.rd.speed hv).2, hl.lo, hl.win⟩) (by rw [k3.chans]; exact hn) k7 (hfl.trans k10) hlive

theorem setNumChannels_repeat {r : Rd} {R : Int} (h : RepeatSettings r R) (n : Int) : RepeatSettings (r.setNumChannels n) R := by
  unfold Rd.setNumChannels
  split <;> exact ⟨⟨h.plain.dual, h.plain.interp⟩, h.loop, h.rate0, h.rateR, h.flt, h.frac⟩

theorem setNumChannels_loop (r : Rd) (n : Int) : (r.setNumChannels n).loopStart = r.loopStart ∧ (r.setNumChannels n).loopFinish = r.loopFinish := by
  unfold Rd.setNumChannels
  split <;> exact ⟨rfl, rfl⟩

/-- **C72** (repeated loops, raw files).  C60 when the program changes the speed between updates as it likes, up to `R`. -/
theorem C72_loop_raw_partial (fp : Fp) (hfp : Representable fp) (g : Geo) (hB : g.B < 16384) (hNB : g.N * g.B ≤ 2 ^ 30) (a : FileReader) {m : List Nat}
    (hb : IsBytes m) (hm : m.length < 2 ^ 31) (past : Bool) {nch : Nat} (hc : 1 ≤ nch) (hc' : nch ≤ 32767) {R mm : Int}
    (hset : RepeatSettings a.rd R) (hhead : a.rd.header = 0) (hloop : GoodLoop g m 0 nch a.rd.loopStart a.rd.loopFinish (firstFrame a.rd))
    (hmm0 : 0 ≤ mm) (hmm : 2 * mm + 5 ≤ g.N) (hadv : 128 * (nch * (R + 1)) ≤ mm * g.B) (nullOk : Bool) {fuel : Nat} (hf : g.N ≤ fuel + 2) :
    ∃ a', a.playRaw g (some ⟨m, 0, past⟩) nch = .ok (true, a') ∧ a'.rd.playing = true ∧ a'.rd.nch = nch ∧ a'.rd.header = 0 ∧ a'.rd.loopType = .repeat ∧
      a'.rd.loopStart = a.rd.loopStart ∧ a'.rd.loopFinish = a.rd.loopFinish ∧ a'.rd.pos1 = firstFrame a.rd * nch ∧ a'.rd.rate = a.rd.rate ∧
      a'.rd.rem = a.rd.rem ∧ LikeInMemoryAt fp g nullOk (fuel + 2) a' m (SpeedsTo R) := by
  have hset' : RepeatSettings (a.close.rd.setNumChannels nch) R :=
    setNumChannels_repeat (r := a.close.rd) ⟨⟨hset.plain.dual, hset.plain.interp⟩, hset.loop, hset.rate0, hset.rateR, hset.flt, hset.frac⟩ nch
  obtain ⟨s1, s2, s3, s4, s5, _⟩ := setNumChannels_rest a.close.rd nch
  obtain ⟨u1, u2⟩ := setNumChannels_loop a.close.rd nch
  have hn := setNumChannels_nch_small a.close.rd (n := nch) (by omega) (by omega)
  have hsz : i32 (m.length : Int) = m.length := by unfold i32; omega
  unfold FileReader.playRaw FileReader.playFile
  simp only [Bool.false_eq_true, if_false, Dev.size]
  rw [hsz]
  generalize a.close.rd.setNumChannels nch = r0 at *
  obtain ⟨r1, hr1⟩ : ∃ r1 : Rd, r1 = { r0 with fileSize := (m.length : Int), fileSamples := (m.length : Int).tdiv 2 } := ⟨_, rfl⟩
  rw [← hr1]
  have t1 : r1.header = 0 := by rw [hr1]; exact s1.trans hhead
  have t3 : r1.nch = nch := by rw [hr1]; exact hn
  have t4 : r1.fileSize = m.length := by rw [hr1]
  have t5 : RepeatSettings r1 R := by
    rw [hr1]; exact ⟨⟨hset'.plain.dual, hset'.plain.interp⟩, hset'.loop, hset'.rate0, hset'.rateR, hset'.flt, hset'.frac⟩
  have t6 : r1.playStart = a.rd.playStart := by rw [hr1]; exact s2
  have t7 : r1.playbackStart = a.rd.playbackStart := by rw [hr1]; exact s3
  have t8 : r1.rate = a.rd.rate := by rw [hr1]; exact s4
  have t9 : r1.rem = a.rd.rem := by rw [hr1]; exact s5
  have t10 : r1.loopStart = a.rd.loopStart := by rw [hr1]; exact u1
  have t11 : r1.loopFinish = a.rd.loopFinish := by rw [hr1]; exact u2
  clear hr1 hsz
  have hst : firstFrame r1 = firstFrame a.rd := by unfold firstFrame; rw [t6, t7, t10]
  obtain ⟨a', k1, k2, k3, k4, k5, k6, k7⟩ := rep_start (r := r1) (f := ⟨m, 0, past⟩) hfp hB hNB hb hm hmm0 hmm
    rfl t4 t5 (le_of_eq t1.symm) (by rw [t3]; omega) (by rw [t1, t3, t10, t11, hst]; exact hloop) (by rw [t3]; exact hadv) nullOk hf
  refine ⟨a', k1, k2, k3.chans.trans t3, k3.header.trans t1, k3.loop, k3.ls.trans t10, k3.lf.trans t11, ?_, k5.trans t8, k6.trans t9, k7⟩
  rw [k4, hst, t1, t3, zero_add]

/-- **C60** (raw files, what does hold).  Playing a raw file forwards with a repeated loop set beforehand, without
interpolation, at any rate up to `R` for which an update moves by at most `mm` blocks, with at least `2 mm + 5` buffers, is the
same as playing it from memory, for ever: long and short loops, any start.  Missing are the loops and starts excluded by
`GoodLoop`; see `C60_start_refuted` and `C60_short_refuted`. -/
theorem C60_raw_partial (fp : Fp) (hfp : Representable fp) (g : Geo) (hB : g.B < 16384) (hNB : g.N * g.B ≤ 2 ^ 30) (a : FileReader) {m : List Nat}
    (hb : IsBytes m) (hm : m.length < 2 ^ 31) (past : Bool) {nch : Nat} (hc : 1 ≤ nch) (hc' : nch ≤ 32767) {R mm : Int}
    (hset : RepeatSettings a.rd R) (hhead : a.rd.header = 0) (hloop : GoodLoop g m 0 nch a.rd.loopStart a.rd.loopFinish (firstFrame a.rd))
    (hmm0 : 0 ≤ mm) (hmm : 2 * mm + 5 ≤ g.N) (hadv : 128 * (nch * (R + 1)) ≤ mm * g.B) (nullOk : Bool) {fuel : Nat} (hf : g.N ≤ fuel + 2) :
    ∃ a', a.playRaw g (some ⟨m, 0, past⟩) nch = .ok (true, a') ∧ a'.rd.playing = true ∧ a'.rd.nch = nch ∧ a'.rd.header = 0 ∧ a'.rd.loopType = .repeat ∧
      a'.rd.loopStart = a.rd.loopStart ∧ a'.rd.loopFinish = a.rd.loopFinish ∧ a'.rd.pos1 = firstFrame a.rd * nch ∧ a'.rd.rate = a.rd.rate ∧
      a'.rd.rem = a.rd.rem ∧ LikeInMemory fp g nullOk (fuel + 2) a' m := by
  obtain ⟨a', h0, h1, h2, h3, h4, h5, h6, h7, h8, h9, h⟩ := C72_loop_raw_partial fp hfp g hB hNB a hb hm past hc hc' hset hhead hloop hmm0 hmm hadv nullOk hf
  exact ⟨a', h0, h1, h2, h3, h4, h5, h6, h7, h8, h9, h.plain⟩

/-- **C72** (repeated loops, WAV files).  Likewise. -/
theorem C72_loop_wav_partial (fp : Fp) (hfp : Representable fp) (g : Geo) (hB : g.B < 16384) (hNB : g.N * g.B ≤ 2 ^ 30) (a : FileReader) {m : List Nat}
    (hb : IsBytes m) (hm : m.length < 2 ^ 31) (past : Bool) (junk : List Nat) (hj : junk.length = 36) (hg : GoodHeader m)
    (hdep : leVal (slice m 34 2) = 16) {off : Nat} (hda : DataAt m off) {nch : Nat} (hn : leVal (slice m 22 2) = nch) (hc : 1 ≤ nch) (hc' : nch ≤ 32767)
    {R mm : Int} (hset : RepeatSettings a.rd R)
    (hloop : GoodLoop g m ((off + 8) / 2 : Nat) nch a.rd.loopStart a.rd.loopFinish (firstFrame a.rd))
    (hmm0 : 0 ≤ mm) (hmm : 2 * mm + 5 ≤ g.N) (hadv : 128 * (nch * (R + 1)) ≤ mm * g.B) (nullOk : Bool) {fuel : Nat} (hf : g.N ≤ fuel + 2) :
    ∃ a', a.playWav g (some ⟨m, 0, past⟩) junk = .ok (true, a') ∧ a'.rd.playing = true ∧ a'.rd.nch = nch ∧ a'.rd.header = ((off + 8) / 2 : Nat) ∧
      a'.rd.loopType = .repeat ∧ a'.rd.loopStart = a.rd.loopStart ∧ a'.rd.loopFinish = a.rd.loopFinish ∧
      a'.rd.pos1 = ((off + 8) / 2 : Nat) + firstFrame a.rd * nch ∧ a'.rd.rate = a.rd.rate ∧ a'.rd.rem = a.rd.rem ∧
      LikeInMemoryAt fp g nullOk (fuel + 2) a' m (SpeedsTo R) := by
  have hsz : i32 (m.length : Int) = m.length := by unfold i32; omega
  obtain ⟨f', hp, hfb, _⟩ := playParseWav_good
    (r := { a.close.rd with fileSize := i32 (m.length : Int) }) (past := past) hj hb hm hg hdep hda
  have hch : u16 (parsed m).numChannels = nch := by
    simp only [parsed]; rw [u16_i16, hn]; unfold u16; omega
  rw [hch] at hp
  have hset' : RepeatSettings ({ a.close.rd with fileSize := i32 (m.length : Int) }.setNumChannels nch) R :=
    setNumChannels_repeat (r := { a.close.rd with fileSize := i32 (m.length : Int) })
      ⟨⟨hset.plain.dual, hset.plain.interp⟩, hset.loop, hset.rate0, hset.rateR, hset.flt, hset.frac⟩ nch
  obtain ⟨s1, s2, s3, s4, s5, s6⟩ := setNumChannels_rest { a.close.rd with fileSize := i32 (m.length : Int) } nch
  obtain ⟨u1, u2⟩ := setNumChannels_loop { a.close.rd with fileSize := i32 (m.length : Int) } nch
  have hn' := setNumChannels_nch_small { a.close.rd with fileSize := i32 (m.length : Int) } (n := nch) (by omega) (by omega)
  simp only at s1 s2 s3 s4 s5 s6 u1 u2
  have s6' := s6.trans hsz
  clear s6
  unfold FileReader.playWav FileReader.playFile
  simp only [if_true, Dev.size]
  rw [hp]
  simp only [ok_bind, Bool.not_true, Bool.false_eq_true, if_false]
  clear hp
  generalize Rd.setNumChannels { a.close.rd with fileSize := i32 (m.length : Int) } nch = r0 at *
  generalize hFS : ((leVal (slice m (off + 4) 4) / 2 : Nat) : Int) = FS
  obtain ⟨r1, hr1⟩ : ∃ r1 : Rd, r1 = { r0 with header := ((off + 8) / 2 : Nat), fileSamples := FS } := ⟨_, rfl⟩
  rw [← hr1]
  have t1 : r1.header = ((off + 8) / 2 : Nat) := by rw [hr1]
  have t3 : r1.nch = nch := by rw [hr1]; exact hn'
  have t4 : r1.fileSize = m.length := by rw [hr1]; exact s6'
  have t5 : RepeatSettings r1 R := by
    rw [hr1]; exact ⟨⟨hset'.plain.dual, hset'.plain.interp⟩, hset'.loop, hset'.rate0, hset'.rateR, hset'.flt, hset'.frac⟩
  have t6 : r1.playStart = a.rd.playStart := by rw [hr1]; exact s2
  have t7 : r1.playbackStart = a.rd.playbackStart := by rw [hr1]; exact s3
  have t8 : r1.rate = a.rd.rate := by rw [hr1]; exact s4
  have t9 : r1.rem = a.rd.rem := by rw [hr1]; exact s5
  have t10 : r1.loopStart = a.rd.loopStart := by rw [hr1]; exact u1
  have t11 : r1.loopFinish = a.rd.loopFinish := by rw [hr1]; exact u2
  clear hr1
  have hst : firstFrame r1 = firstFrame a.rd := by unfold firstFrame; rw [t6, t7, t10]
  obtain ⟨a', k1, k2, k3, k4, k5, k6, k7⟩ := rep_start (r := r1) (f := f') hfp hB hNB hb hm hmm0 hmm
    hfb t4 t5 (by rw [t1]; exact Int.natCast_nonneg _) (by rw [t3]; omega) (by rw [t1, t3, t10, t11, hst]; exact hloop) (by rw [t3]; exact hadv) nullOk hf
  refine ⟨a', k1, k2, k3.chans.trans t3, k3.header.trans t1, k3.loop, k3.ls.trans t10, k3.lf.trans t11, ?_, k5.trans t8, k6.trans t9, k7⟩
  rw [k4, hst, t1, t3]

/-- **C60** (WAV files, what does hold).  The same for WAV files. -/
theorem C60_wav_partial (fp : Fp) (hfp : Representable fp) (g : Geo) (hB : g.B < 16384) (hNB : g.N * g.B ≤ 2 ^ 30) (a : FileReader) {m : List Nat}
    (hb : IsBytes m) (hm : m.length < 2 ^ 31) (past : Bool) (junk : List Nat) (hj : junk.length = 36) (hg : GoodHeader m)
    (hdep : leVal (slice m 34 2) = 16) {off : Nat} (hda : DataAt m off) {nch : Nat} (hn : leVal (slice m 22 2) = nch) (hc : 1 ≤ nch) (hc' : nch ≤ 32767)
    {R mm : Int} (hset : RepeatSettings a.rd R)
    (hloop : GoodLoop g m ((off + 8) / 2 : Nat) nch a.rd.loopStart a.rd.loopFinish (firstFrame a.rd))
    (hmm0 : 0 ≤ mm) (hmm : 2 * mm + 5 ≤ g.N) (hadv : 128 * (nch * (R + 1)) ≤ mm * g.B) (nullOk : Bool) {fuel : Nat} (hf : g.N ≤ fuel + 2) :
    ∃ a', a.playWav g (some ⟨m, 0, past⟩) junk = .ok (true, a') ∧ a'.rd.playing = true ∧ a'.rd.nch = nch ∧ a'.rd.header = ((off + 8) / 2 : Nat) ∧
      a'.rd.loopType = .repeat ∧ a'.rd.loopStart = a.rd.loopStart ∧ a'.rd.loopFinish = a.rd.loopFinish ∧
      a'.rd.pos1 = ((off + 8) / 2 : Nat) + firstFrame a.rd * nch ∧ a'.rd.rate = a.rd.rate ∧ a'.rd.rem = a.rd.rem ∧
      LikeInMemory fp g nullOk (fuel + 2) a' m := by
  obtain ⟨a', h0, h1, h2, h3, h4, h5, h6, h7, h8, h9, h⟩ := C72_loop_wav_partial fp hfp g hB hNB a hb hm past junk hj hg hdep hda hn hc hc' hset hloop hmm0 hmm hadv nullOk hf
  exact ⟨a', h0, h1, h2, h3, h4, h5, h6, h7, h8, h9, h.plain⟩

/-! ## Examples -/

/-- A player set to repeat frames 500 to `z` at one and a half times the speed, starting at the given frame. -/
def exRepeat (z q : Int) : FileReader := { rd := { rate := 3 / 2, loopType := .repeat, loopStart := 500, loopFinish := z, playStart := .arbitrary, playbackStart := q } }

theorem exRepeat_settings (z q : Int) : RepeatSettings (exRepeat z q).rd 2 :=
  ⟨⟨rfl, rfl⟩, rfl, by norm_num [exRepeat], by norm_num [exRepeat], by
    show IsFloat 53 (-1074) 0
    simpa using Rounding.isFloat_of (p := 53) (emin := -1074) (by norm_num) (m := 0) (e := 0) (by norm_num) (by norm_num), by norm_num [exRepeat]⟩

/-- A long loop in a stereo file of 100000 bytes, from the beginning of the file. -/
example : ∃ a', (exRepeat 20000 7).playRaw sdGeo (some ⟨List.replicate 100000 5, 0, false⟩) (2 : Nat) = .ok (true, a') ∧ a'.rd.playing = true ∧
    a'.rd.nch = (2 : Nat) ∧ a'.rd.header = 0 ∧ a'.rd.loopType = .repeat ∧ a'.rd.loopStart = 500 ∧ a'.rd.loopFinish = 20000 ∧ a'.rd.pos1 = 7 * (2 : Nat) ∧
    a'.rd.rate = 3 / 2 ∧ a'.rd.rem = 0 ∧ LikeInMemory Fp.ieee sdGeo true (6 + 2) a' (List.replicate 100000 5) :=
  C60_raw_partial Fp.ieee ieee_representable sdGeo (by decide) (by decide) (exRepeat 20000 7) (by intro b hb; rw [(List.mem_replicate.1 hb).2]; decide)
    (by rw [List.length_replicate]; decide) false (by decide) (by decide) (exRepeat_settings 20000 7) rfl
    ⟨by decide, by decide, by rw [List.length_replicate]; decide, by decide, by decide, Or.inl ⟨by decide, by decide⟩⟩ (mm := 1) (by decide) (by decide)
    (by decide) true (by decide)

/-- A loop of ten frames in a file of 40000 bytes. -/
example : ∃ a', (exRepeat 510 500).playRaw sdGeo (some ⟨List.replicate 40000 5, 0, false⟩) (1 : Nat) = .ok (true, a') ∧ a'.rd.playing = true ∧
    a'.rd.nch = (1 : Nat) ∧ a'.rd.header = 0 ∧ a'.rd.loopType = .repeat ∧ a'.rd.loopStart = 500 ∧ a'.rd.loopFinish = 510 ∧ a'.rd.pos1 = 500 * (1 : Nat) ∧
    a'.rd.rate = 3 / 2 ∧ a'.rd.rem = 0 ∧ LikeInMemory Fp.ieee sdGeo true (6 + 2) a' (List.replicate 40000 5) :=
  C60_raw_partial Fp.ieee ieee_representable sdGeo (by decide) (by decide) (exRepeat 510 500) (by intro b hb; rw [(List.mem_replicate.1 hb).2]; decide)
    (by rw [List.length_replicate]; decide) false (by decide) (by decide) (exRepeat_settings 510 500) rfl
    ⟨by decide, by decide, by rw [List.length_replicate]; decide, by decide, by decide, Or.inr ⟨by decide, by rw [List.length_replicate]; decide⟩⟩ (mm := 1)
    (by decide) (by decide) (by decide) true (by decide)

/-- A stereo WAV file of 40056 bytes. -/
def exLongWav : List Nat := wav exFields (some [73, 78, 70, 79]) 40000 (List.replicate 40000 3)

theorem exLongWav_length : exLongWav.length = 40056 := by
  have h : (header exFields ++ listChunk (some [73, 78, 70, 79]) ++ dataHead 40000).length = 56 := by decide +kernel
  unfold exLongWav wav
  rw [List.length_append, h, List.length_replicate]

theorem exLongWav_bytes : IsBytes exLongWav := by
  have h : IsBytes (header exFields ++ listChunk (some [73, 78, 70, 79]) ++ dataHead 40000) := by unfold IsBytes; decide +kernel
  intro b hb
  rcases List.mem_append.1 hb with hb | hb
  · exact h b hb
  · rw [(List.mem_replicate.1 hb).2]; decide

example : ∃ a', (exRepeat 900 500).playWav sdGeo (some ⟨exLongWav, 0, false⟩) (List.replicate 36 7) = .ok (true, a') ∧ a'.rd.playing = true ∧
    a'.rd.nch = (2 : Nat) ∧ a'.rd.header = ((48 + 8) / 2 : Nat) ∧ a'.rd.loopType = .repeat ∧ a'.rd.loopStart = 500 ∧ a'.rd.loopFinish = 900 ∧
    a'.rd.pos1 = ((48 + 8) / 2 : Nat) + 500 * (2 : Nat) ∧ a'.rd.rate = 3 / 2 ∧ a'.rd.rem = 0 ∧ LikeInMemory Fp.ieee sdGeo true (6 + 2) a' exLongWav :=
  C60_wav_partial Fp.ieee ieee_representable sdGeo (by decide) (by decide) (exRepeat 900 500) exLongWav_bytes (by rw [exLongWav_length]; decide) false
    (List.replicate 36 7) (by decide) (by decide +kernel) (by decide +kernel) (off := 48)
    ⟨Or.inr ⟨by decide +kernel, by decide +kernel⟩, by decide +kernel, by rw [exLongWav_length]; decide⟩ (nch := 2) (by decide +kernel) (by decide) (by decide)
    (exRepeat_settings 900 500)
    ⟨by decide, by decide, by rw [exLongWav_length]; decide, by decide, by decide, Or.inr ⟨by decide, by rw [exLongWav_length]; decide⟩⟩ (mm := 1)
    (by decide) (by decide) (by decide) true (by decide)

/-! ## Where it fails -/

/-- What a player, set to repeat frames 0 to `z` of a mono file of bytes `b` on an SD card, transmits in its first update. -/
def exFirstRepeat (len b : Nat) (z q : Int) : M (List (List Int × Nat)) := do
  let (_, a) ← ({ rd := { loopType := .repeat, loopStart := 0, loopFinish := z, playStart := .arbitrary, playbackStart := q } } : FileReader).playRaw sdGeo
    (some ⟨List.replicate len b, 0, false⟩) 1
  let (fxs, _) ← a.ticks Fp.ieee sdGeo true 8 [fun _ => true]
  return fxs.flatMap (·.transmitted)

/-- **C60** is violated when playback starts near the end of a loop that begins in an earlier block: a file of nine blocks, all
samples 257, of which the first 2068 are repeated, played from sample 2058.  The ten samples up to the end of the loop are
transmitted (on both outputs), and then silence: the beginning of the loop has not been loaded. -/
theorem C60_start_refuted : exFirstRepeat 36864 1 2068 2058 =
    .ok [(List.replicate 10 257 ++ List.replicate 118 0, 0), (List.replicate 10 257 ++ List.replicate 118 0, 1)] := by
  decide +kernel

/-- **C60** is violated for files shorter than the buffers: a mono file of 4096 samples, all of it repeated at sixteen times the
speed.  The reload after the second update looks for a buffer that does not exist. -/
theorem C60_short_refuted : (({ rd := { loopType := .repeat, loopStart := 0, loopFinish := 4096, rate := 16 } } : FileReader).playRaw sdGeo
      (some ⟨List.replicate 8192 0, 0, false⟩) 1 >>= fun x => (x.2.ticks Fp.ieee sdGeo true 8 [fun _ => true, fun _ => true]).map fun _ => ()) =
    .error .outOfBounds := by
  decide +kernel

end TVP
