import Verif.Lemmas.GlideInterp
import Verif.Props.Stream

/-!
# Property C68: streaming with interpolation has no dropouts
-/

namespace TVP
open Spec

/-- Settings for forward playback without looping, with any interpolation, at a rate of at most `R`.  Above rate one: not cubic
interpolation, and linear interpolation starts on a frame. -/
structure SmoothSettings (r : Rd) (R : Int) : Prop where
  dual : r.dual = false
  loop : r.loopType = .none
  rate0 : 0 ≤ r.rate
  rateR : r.rate ≤ R
  flt : IsFloat 53 (-1074) r.rem
  frac : |r.rem| < 1
  rem0 : r.interp ≠ .none → 0 ≤ r.rem
  linear : r.interp = .linear → 1 < r.rate → r.rem = 0
  cubic : r.interp = .quadratic → r.rate ≤ 1
  pts : ∀ c, InI16 (r.pts c).y0 ∧ InI16 (r.pts c).y1 ∧ InI16 (r.pts c).y2 ∧ InI16 (r.pts c).y3

theorem SmoothSettings.interpFwd {r : Rd} {R : Int} (h : SmoothSettings r R) (hc : r.interp ≠ .none → r.nch ≤ 8) : InterpFwd r := by
  unfold InterpFwd
  cases e : r.interp with
  | none => trivial
  | linear => exact ⟨hc (by rw [e]; decide), h.rem0 (by rw [e]; decide)⟩
  | quadratic => exact ⟨hc (by rw [e]; decide), h.rem0 (by rw [e]; decide), h.cubic e⟩

theorem setNumChannels_smooth {r : Rd} {R : Int} (h : SmoothSettings r R) (n : Int) :
    SmoothSettings (r.setNumChannels n) R ∧ (r.setNumChannels n).interp = r.interp := by
  unfold Rd.setNumChannels
  obtain ⟨y1, y2, y3, y4, y5, y6, y7, y8, y9, y10⟩ := h
  split <;> exact ⟨⟨y1, y2, y3, y4, y5, y6, y7, y8, y9, y10⟩, rfl⟩

/-- Speeds up to `R` frames per frame, forwards, up to one with cubic interpolation; with linear interpolation the speed is not raised
above one between two frames. -/
def SmoothSpeeds (R : Int) (r : Rd) (v : ℚ) : Prop :=
  0 ≤ v ∧ v ≤ R ∧ (r.interp = .quadratic → v ≤ 1) ∧ (r.interp = .linear → 1 < v → 1 < r.rate ∨ r.rem = 0)

theorem InStepI.speed {m : List Nat} {g : Geo} {mm R H F nch : Int} {F0 : Nat} {a : FileReader} {b : ArrayReader} {v : ℚ}
    (h : InStepI m g mm R H F nch F0 a b) (hv : SmoothSpeeds R a.rd v) :
    InStepI m g mm R H F nch F0 { a with rd := a.rd.setPlaybackRate v } { b with rd := b.rd.setPlaybackRate v } := by
  obtain ⟨k1, k2⟩ := setPlaybackRate_keeps a.rd v
  refine ⟨by simp only; rw [h.rd], by simp only; rw [k2]; exact h.chans, h.fails, h.src, fun hp => ?_⟩
  simp only at hp ⊢
  rw [k1] at hp
  obtain ⟨hs, c, k, L, q1, q2, q3, q4⟩ := h.live hp
  obtain ⟨q, e1, e2, e3⟩ := hs.pos
  have hin : Inside a.rd v := Or.inr ⟨hv.1, by rw [hs.header, e3]; have := mul_nonneg e1 (le_of_lt hs.n0); omega⟩
  rw [hin.only_rate]
  have hB0 : (0 : Int) < g.B := by exact_mod_cast g.B_pos
  refine ⟨⟨hs.dual, hs.cfOn, hs.w0, hs.w1, hs.n0, hs.loop, hv.1, hv.2.1, hs.flt, hs.frac, ?_, hs.pts, hs.header, hs.fs, hs.chans, q, e1, e2, e3⟩,
    c, k, L, q1, q2, le_trans q3 (Int.ediv_le_ediv hB0 ?_), q4⟩
  · have hi := hs.ip
    unfold InterpFwd at hi ⊢
    simp only
    cases e : a.rd.interp <;> simp only [e] at hi ⊢
    · exact hi
    · exact ⟨hi.1, hi.2.1, hv.2.2.1 e⟩
  · have hn : 0 ≤ a.rd.nch := le_of_lt h.chans
    unfold lowest
    simp only
    split
    · split
      · exact le_refl _
      · omega
    · rename_i h1
      rw [if_neg]
      rintro ⟨c1, c2, c3⟩
      rcases hv.2.2.2 c1 c2 with h2 | h2
      · exact h1 ⟨c1, h2, c3⟩
      · exact c3 h2

/-- From the end of `play(filename)` on. -/
theorem smooth_start {m : List Nat} {g : Geo} {mm : Int} {fp : Fp} (hfp : Representable fp) (hB : g.B < 16384) (hNB : g.N * g.B ≤ 2 ^ 30)
    (hb : IsBytes m) (hm : m.length < 2 ^ 31) (hmm0 : 0 ≤ mm) (hmm : 2 * mm + 1 ≤ g.N) {R : Int} {r : Rd} {f : Dev} (hf : f.bytes = m)
    (hsz : r.fileSize = m.length) (hset : SmoothSettings r R) (h8 : r.interp ≠ .none → r.nch ≤ 8) {F : Nat} (hH : 0 ≤ r.header)
    (hroom : 2 * r.header < m.length) (hn : 0 < r.nch)
    (hF0 : 0 ≤ r.fileSamples) (hF : r.fileSamples.tdiv r.nch = F) (hE : 2 * (r.header + F * r.nch) ≤ m.length)
    (hstart : r.playStart = .arbitrary → 0 ≤ r.playbackStart ∧ r.playbackStart ≤ F) (hadv : 128 * (r.nch * (R + 1)) + r.nch ≤ mm * g.B)
    (nullOk : Bool) {fuel : Nat} (hfu : g.N ≤ fuel + 1) :
    ∃ a', playFinish g r f = .ok (true, a') ∧ a'.rd.playing = true ∧ a'.rd.nch = r.nch ∧ a'.rd.header = r.header ∧ a'.rd.fileSamples = F ∧
      a'.rd.rate = r.rate ∧ a'.rd.rem = r.rem ∧ a'.rd.pos1 = r.header + startFrame r * r.nch ∧ a'.rd.interp = r.interp ∧
      LikeInMemoryAt fp g nullOk (fuel + 1) a' m (SmoothSpeeds R) := by
  have hB0 : (0 : Int) < g.B := by exact_mod_cast g.B_pos
  have hNB' : (g.N : Int) * g.B ≤ 2 ^ 30 := by exact_mod_cast hNB
  have hR : 0 ≤ R := by
    have : (0 : ℚ) ≤ R := le_trans hset.rate0 hset.rateR
    exact_mod_cast this
  have h1 : mm * g.B ≤ g.N * g.B := mul_le_mul_of_nonneg_right (by omega) (le_of_lt hB0)
  have h2 : R + 1 ≤ r.nch * (R + 1) := le_mul_of_one_le_left (by omega) (by omega)
  have h3 : r.header + r.nch * (F + R + 1) = r.header + F * r.nch + r.nch * (R + 1) := by ring
  obtain ⟨a', k1, k2, k3, k4, k5, k6, k7, k8, k9, k10⟩ := playFinish_interp (m := m) (g := g) (mm := mm) (r := r) (f := f) (R := R) hm (by omega) hmm0 hmm
    (by omega) hf hsz hH hroom hn hset.dual (hset.interpFwd h8) hset.linear hset.pts hset.loop hset.rate0 hset.rateR hset.flt hset.frac hF0
    (by rw [hF]; exact hE)
    (by unfold startFrame; split
        · rename_i e; exact (hstart e).1
        · exact le_refl _)
    (by unfold startFrame; rw [hF]; split
        · rename_i e; exact (hstart e).2
        · omega)
  rw [hF] at k2
  refine ⟨a', k1, k3, k4, k5, by rw [k6, hF], k7, k8, k9, k10, ?_⟩
  exact likeAt_of hb (InStepI m g mm R r.header F r.nch 0) (fun a b h => ⟨h.rd, h.fails⟩)
    (fun a b al h => InStepI.tick hfp hB hb (by omega) (by omega) (by omega) hH (by omega) (by rw [h3]; omega) hadv hE nullOk hfu h al)
    (fun a b v h hv => h.speed hv) k2

/-- **C72** (forwards with interpolation, raw files).  C68 when the program changes the speed between updates; see `SmoothSpeeds`. -/
theorem C72_smooth_raw_partial (fp : Fp) (hfp : Representable fp) (g : Geo) (hB : g.B < 16384) (hNB : g.N * g.B ≤ 2 ^ 30) (a : FileReader) {m : List Nat}
    (hb : IsBytes m) (h0 : 0 < m.length) (hm : m.length < 2 ^ 31) (past : Bool) {nch : Nat} (hc : 1 ≤ nch) (hc' : nch ≤ 32767) {R mm : Int}
    (hset : SmoothSettings a.rd R) (h8 : a.rd.interp ≠ .none → nch ≤ 8) (hhead : a.rd.header = 0)
    (hstart : a.rd.playStart = .arbitrary → 0 ≤ a.rd.playbackStart ∧ a.rd.playbackStart ≤ (m.length / 2 / nch : Nat))
    (hmm0 : 0 ≤ mm) (hmm : 2 * mm + 1 ≤ g.N) (hadv : 128 * (nch * (R + 1)) + nch ≤ mm * g.B) (nullOk : Bool) {fuel : Nat} (hf : g.N ≤ fuel + 1) :
    ∃ a', a.playRaw g (some ⟨m, 0, past⟩) nch = .ok (true, a') ∧ a'.rd.playing = true ∧ a'.rd.nch = nch ∧ a'.rd.fileSamples = (m.length / 2 / nch : Nat) ∧
      a'.rd.pos1 = startFrame a.rd * nch ∧ a'.rd.rate = a.rd.rate ∧ a'.rd.rem = a.rd.rem ∧ a'.rd.interp = a.rd.interp ∧
      LikeInMemoryAt fp g nullOk (fuel + 1) a' m (SmoothSpeeds R) := by
  have hmul : ((m.length / 2 / nch : Nat) : Int) * nch ≤ (m.length / 2 : Nat) := by exact_mod_cast Nat.div_mul_le_self _ _
  have hE : 2 * ((0 : Int) + (m.length / 2 / nch : Nat) * nch) ≤ m.length := by omega
  have hH : 2 * (0 : Int) < m.length := by omega
  obtain ⟨hset', hi'⟩ := setNumChannels_smooth (r := a.close.rd)
    ⟨hset.dual, hset.loop, hset.rate0, hset.rateR, hset.flt, hset.frac, hset.rem0, hset.linear, hset.cubic, hset.pts⟩ nch
  obtain ⟨s1, s2, s3, s4, s5, _⟩ := setNumChannels_rest a.close.rd nch
  have hn := setNumChannels_nch_small a.close.rd (n := nch) (by omega) (by omega)
  have hsz : i32 (m.length : Int) = m.length := by unfold i32; omega
  unfold FileReader.playRaw FileReader.playFile
  simp only [Bool.false_eq_true, if_false, Dev.size]
  rw [hsz]
  generalize a.close.rd.setNumChannels nch = r0 at *
  obtain ⟨r1, hr1⟩ : ∃ r1 : Rd, r1 = { r0 with fileSize := (m.length : Int), fileSamples := (m.length : Int).tdiv 2 } := ⟨_, rfl⟩
  rw [← hr1]
  have t1 : r1.header = 0 := by rw [hr1]; exact s1.trans hhead
  have t2 : r1.fileSamples = (m.length : Int).tdiv 2 := by rw [hr1]
  have t3 : r1.nch = nch := by rw [hr1]; exact hn
  have t4 : r1.fileSize = m.length := by rw [hr1]
  have t5 : SmoothSettings r1 R := by
    rw [hr1]
    exact ⟨hset'.dual, hset'.loop, hset'.rate0, hset'.rateR, hset'.flt, hset'.frac, hset'.rem0, hset'.linear, hset'.cubic, hset'.pts⟩
  have t6 : r1.playStart = a.rd.playStart := by rw [hr1]; exact s2
  have t7 : r1.playbackStart = a.rd.playbackStart := by rw [hr1]; exact s3
  have t8 : r1.rate = a.rd.rate := by rw [hr1]; exact s4
  have t9 : r1.rem = a.rd.rem := by rw [hr1]; exact s5
  have t10 : r1.interp = a.rd.interp := by rw [hr1]; exact hi'
  clear hr1 hsz
  have hst : startFrame r1 = startFrame a.rd := by unfold startFrame; rw [t6, t7]
  obtain ⟨a', k1, k2, k3, k4, k5, k6, k7, k8, k10, k9⟩ := smooth_start (r := r1) (f := ⟨m, 0, past⟩) (F := m.length / 2 / nch) hfp hB hNB hb hm hmm0 hmm
    rfl t4 t5 (by rw [t10, t3]; intro e; exact_mod_cast h8 e) (le_of_eq t1.symm) (by rw [t1]; exact hH) (by rw [t3]; omega)
    (by rw [t2]; exact Int.tdiv_nonneg (by omega) (by omega))
    (by rw [t2, t3, Int.tdiv_eq_ediv_of_nonneg (Int.natCast_nonneg _), Int.tdiv_eq_ediv_of_nonneg (by omega), Int.natCast_ediv, Int.natCast_ediv]; norm_num)
    (by rw [t1, t3]; exact hE) (by rw [t6, t7]; exact hstart) (by rw [t3]; exact hadv) nullOk hf
  refine ⟨a', k1, k2, k3.trans t3, k5, ?_, k6.trans t8, k7.trans t9, k10.trans t10, k9⟩
  rw [k8, hst, t1, t3, zero_add]

/-- **C68** (raw files; partial: cubic interpolation only up to rate one, see `C68_refuted`; interpolation of at most eight channels).  Playing a
raw file forwards without looping, with no, linear or cubic interpolation, from the beginning or from any frame, is the same as playing it from
memory with that interpolation. -/
theorem C68_raw_partial (fp : Fp) (hfp : Representable fp) (g : Geo) (hB : g.B < 16384) (hNB : g.N * g.B ≤ 2 ^ 30) (a : FileReader) {m : List Nat}
    (hb : IsBytes m) (h0 : 0 < m.length) (hm : m.length < 2 ^ 31) (past : Bool) {nch : Nat} (hc : 1 ≤ nch) (hc' : nch ≤ 32767) {R mm : Int}
    (hset : SmoothSettings a.rd R) (h8 : a.rd.interp ≠ .none → nch ≤ 8) (hhead : a.rd.header = 0)
    (hstart : a.rd.playStart = .arbitrary → 0 ≤ a.rd.playbackStart ∧ a.rd.playbackStart ≤ (m.length / 2 / nch : Nat))
    (hmm0 : 0 ≤ mm) (hmm : 2 * mm + 1 ≤ g.N) (hadv : 128 * (nch * (R + 1)) + nch ≤ mm * g.B) (nullOk : Bool) {fuel : Nat} (hf : g.N ≤ fuel + 1) :
    ∃ a', a.playRaw g (some ⟨m, 0, past⟩) nch = .ok (true, a') ∧ a'.rd.playing = true ∧ a'.rd.nch = nch ∧ a'.rd.fileSamples = (m.length / 2 / nch : Nat) ∧
      a'.rd.pos1 = startFrame a.rd * nch ∧ a'.rd.rate = a.rd.rate ∧ a'.rd.rem = a.rd.rem ∧ a'.rd.interp = a.rd.interp ∧
      LikeInMemory fp g nullOk (fuel + 1) a' m := by
  obtain ⟨a', h0, h1, h2, h3, h4, h5, h6, h7, h⟩ := C72_smooth_raw_partial fp hfp g hB hNB a hb h0 hm past hc hc' hset h8 hhead hstart hmm0 hmm hadv nullOk hf
  exact ⟨a', h0, h1, h2, h3, h4, h5, h6, h7, h.plain⟩

/-- **C72** (forwards with interpolation, WAV files).  Likewise. -/
theorem C72_smooth_wav_partial (fp : Fp) (hfp : Representable fp) (g : Geo) (hB : g.B < 16384) (hNB : g.N * g.B ≤ 2 ^ 30) (a : FileReader) {m : List Nat}
    (hb : IsBytes m) (hm : m.length < 2 ^ 31) (past : Bool) (junk : List Nat) (hj : junk.length = 36) (hg : GoodHeader m)
    (hdep : leVal (slice m 34 2) = 16) {off : Nat} (hda : DataAt m off) {nch D : Nat} (hn : leVal (slice m 22 2) = nch) (hc : 1 ≤ nch) (hc' : nch ≤ 32767)
    (hD : leVal (slice m (off + 4) 4) = D) (hdata : off + 8 + D ≤ m.length) (hroom : off + 8 < m.length) {R mm : Int} (hset : SmoothSettings a.rd R)
    (h8 : a.rd.interp ≠ .none → nch ≤ 8)
    (hstart : a.rd.playStart = .arbitrary → 0 ≤ a.rd.playbackStart ∧ a.rd.playbackStart ≤ (D / 2 / nch : Nat))
    (hmm0 : 0 ≤ mm) (hmm : 2 * mm + 1 ≤ g.N) (hadv : 128 * (nch * (R + 1)) + nch ≤ mm * g.B) (nullOk : Bool) {fuel : Nat} (hf : g.N ≤ fuel + 1) :
    ∃ a', a.playWav g (some ⟨m, 0, past⟩) junk = .ok (true, a') ∧ a'.rd.playing = true ∧ a'.rd.nch = nch ∧ a'.rd.header = ((off + 8) / 2 : Nat) ∧
      a'.rd.fileSamples = (D / 2 / nch : Nat) ∧ a'.rd.rate = a.rd.rate ∧ a'.rd.rem = a.rd.rem ∧
      a'.rd.pos1 = ((off + 8) / 2 : Nat) + startFrame a.rd * nch ∧ a'.rd.interp = a.rd.interp ∧
      LikeInMemoryAt fp g nullOk (fuel + 1) a' m (SmoothSpeeds R) := by
  have hsz : i32 (m.length : Int) = m.length := by unfold i32; omega
  obtain ⟨f', hp, hfb, _⟩ := playParseWav_good
    (r := { a.close.rd with fileSize := i32 (m.length : Int) }) (past := past) hj hb hm hg hdep hda
  have hch : u16 (parsed m).numChannels = nch := by
    simp only [parsed]; rw [u16_i16, hn]; unfold u16; omega
  rw [hch, hD] at hp
  obtain ⟨hset', hi'⟩ := setNumChannels_smooth (r := { a.close.rd with fileSize := i32 (m.length : Int) })
    ⟨hset.dual, hset.loop, hset.rate0, hset.rateR, hset.flt, hset.frac, hset.rem0, hset.linear, hset.cubic, hset.pts⟩ nch
  obtain ⟨s1, s2, s3, s4, s5, s6⟩ := setNumChannels_rest { a.close.rd with fileSize := i32 (m.length : Int) } nch
  have hn' := setNumChannels_nch_small { a.close.rd with fileSize := i32 (m.length : Int) } (n := nch) (by omega) (by omega)
  simp only at s1 s2 s3 s4 s5 s6 hi'
  have s6' := s6.trans hsz
  clear s6
  unfold FileReader.playWav FileReader.playFile
  simp only [if_true, Dev.size]
  rw [hp]
  simp only [ok_bind, Bool.not_true, Bool.false_eq_true, if_false]
  clear hp
  generalize Rd.setNumChannels { a.close.rd with fileSize := i32 (m.length : Int) } nch = r0 at *
  have hmul : ((D / 2 / nch : Nat) : Int) * nch ≤ (D / 2 : Nat) := by exact_mod_cast Nat.div_mul_le_self _ _
  obtain ⟨r1, hr1⟩ : ∃ r1 : Rd, r1 = { r0 with header := ((off + 8) / 2 : Nat), fileSamples := (D / 2 : Nat) } := ⟨_, rfl⟩
  rw [← hr1]
  have t1 : r1.header = ((off + 8) / 2 : Nat) := by rw [hr1]
  have t2 : r1.fileSamples = (D / 2 : Nat) := by rw [hr1]
  have t3 : r1.nch = nch := by rw [hr1]; exact hn'
  have t4 : r1.fileSize = m.length := by rw [hr1]; exact s6'
  have t5 : SmoothSettings r1 R := by
    rw [hr1]
    exact ⟨hset'.dual, hset'.loop, hset'.rate0, hset'.rateR, hset'.flt, hset'.frac, hset'.rem0, hset'.linear, hset'.cubic, hset'.pts⟩
  have t6 : r1.playStart = a.rd.playStart := by rw [hr1]; exact s2
  have t7 : r1.playbackStart = a.rd.playbackStart := by rw [hr1]; exact s3
  have t8 : r1.rate = a.rd.rate := by rw [hr1]; exact s4
  have t9 : r1.rem = a.rd.rem := by rw [hr1]; exact s5
  have t10 : r1.interp = a.rd.interp := by rw [hr1]; exact hi'
  clear hr1
  have hH : 2 * (((off + 8) / 2 : Nat) : Int) < m.length := by clear hsz hch hn hD hdep; omega
  have hE : 2 * ((((off + 8) / 2 : Nat) : Int) + (D / 2 / nch : Nat) * nch) ≤ m.length := by clear hsz hch hn hD hdep; omega
  have hst : startFrame r1 = startFrame a.rd := by unfold startFrame; rw [t6, t7]
  have hFe : r1.fileSamples.tdiv r1.nch = (D / 2 / nch : Nat) := by rw [t2, t3, Int.tdiv_eq_ediv_of_nonneg (by omega), ← Int.natCast_ediv]
  obtain ⟨a', k1, k2, k3, k4, k5, k6, k7, k8, k10, k9⟩ := smooth_start (r := r1) (f := f') (F := D / 2 / nch) hfp hB hNB hb hm hmm0 hmm
    hfb t4 t5 (by rw [t10, t3]; intro e; exact_mod_cast h8 e) (by rw [t1]; exact Int.natCast_nonneg _) (by rw [t1]; exact hH) (by rw [t3]; omega)
    (by rw [t2]; exact Int.natCast_nonneg _) hFe (by rw [t1, t3]; exact hE) (by rw [t6, t7]; exact hstart) (by rw [t3]; exact hadv) nullOk hf
  exact ⟨a', k1, k2, k3.trans t3, k4.trans t1, k5, k6.trans t8, k7.trans t9, by rw [k8, hst, t1, t3], k10.trans t10, k9⟩

/-- **C68** (WAV files; partial as above).  The same for WAV files whose data chunk lies in the file. -/
theorem C68_wav_partial (fp : Fp) (hfp : Representable fp) (g : Geo) (hB : g.B < 16384) (hNB : g.N * g.B ≤ 2 ^ 30) (a : FileReader) {m : List Nat}
    (hb : IsBytes m) (hm : m.length < 2 ^ 31) (past : Bool) (junk : List Nat) (hj : junk.length = 36) (hg : GoodHeader m)
    (hdep : leVal (slice m 34 2) = 16) {off : Nat} (hda : DataAt m off) {nch D : Nat} (hn : leVal (slice m 22 2) = nch) (hc : 1 ≤ nch) (hc' : nch ≤ 32767)
    (hD : leVal (slice m (off + 4) 4) = D) (hdata : off + 8 + D ≤ m.length) (hroom : off + 8 < m.length) {R mm : Int} (hset : SmoothSettings a.rd R)
    (h8 : a.rd.interp ≠ .none → nch ≤ 8)
    (hstart : a.rd.playStart = .arbitrary → 0 ≤ a.rd.playbackStart ∧ a.rd.playbackStart ≤ (D / 2 / nch : Nat))
    (hmm0 : 0 ≤ mm) (hmm : 2 * mm + 1 ≤ g.N) (hadv : 128 * (nch * (R + 1)) + nch ≤ mm * g.B) (nullOk : Bool) {fuel : Nat} (hf : g.N ≤ fuel + 1) :
    ∃ a', a.playWav g (some ⟨m, 0, past⟩) junk = .ok (true, a') ∧ a'.rd.playing = true ∧ a'.rd.nch = nch ∧ a'.rd.header = ((off + 8) / 2 : Nat) ∧
      a'.rd.fileSamples = (D / 2 / nch : Nat) ∧ a'.rd.rate = a.rd.rate ∧ a'.rd.rem = a.rd.rem ∧
      a'.rd.pos1 = ((off + 8) / 2 : Nat) + startFrame a.rd * nch ∧ a'.rd.interp = a.rd.interp ∧
      LikeInMemory fp g nullOk (fuel + 1) a' m := by
  obtain ⟨a', h0, h1, h2, h3, h4, h5, h6, h7, h8, h⟩ := C72_smooth_wav_partial fp hfp g hB hNB a hb hm past junk hj hg hdep hda hn hc hc' hD hdata hroom hset h8 hstart hmm0 hmm hadv nullOk hf
  exact ⟨a', h0, h1, h2, h3, h4, h5, h6, h7, h8, h.plain⟩

/-- A player before its first sound: cubic interpolation, three quarters of the speed. -/
def exSmooth : FileReader := { rd := { rate := 3 / 4, interp := .quadratic } }

theorem exSmooth_settings : SmoothSettings exSmooth.rd 1 where
  dual := rfl
  loop := rfl
  rate0 := by norm_num [exSmooth]
  rateR := by norm_num [exSmooth]
  flt := exHalf_settings.flt
  frac := by norm_num [exSmooth]
  rem0 := fun _ => le_refl _
  linear := fun h => by cases h
  cubic := fun _ => by norm_num [exSmooth]
  pts := fun _ => by simp [exSmooth, InI16]

example : ∃ a', exSmooth.playRaw sdGeo (some ⟨exBytes, 0, false⟩) (1 : Nat) = .ok (true, a') ∧ a'.rd.playing = true ∧ a'.rd.nch = (1 : Nat) ∧
    a'.rd.fileSamples = (exBytes.length / 2 / 1 : Nat) ∧ a'.rd.pos1 = startFrame exSmooth.rd * (1 : Nat) ∧ a'.rd.rate = exSmooth.rd.rate ∧
    a'.rd.rem = exSmooth.rd.rem ∧ a'.rd.interp = exSmooth.rd.interp ∧ LikeInMemory Fp.ieee sdGeo true (6 + 1) a' exBytes :=
  C68_raw_partial Fp.ieee ieee_representable sdGeo (by decide) (by decide) exSmooth (by unfold IsBytes; decide) (by decide) (by decide) false (by decide)
    (by decide) (R := 1) (mm := 1) exSmooth_settings (by decide) rfl (by intro h; cases h) (by decide) (by decide) (by decide) true (by decide)

/-- Linear interpolation at five thirds of the speed, roughly. -/
def exFaster : FileReader := { rd := { rate := 5 / 3, interp := .linear } }

theorem exFaster_settings : SmoothSettings exFaster.rd 2 where
  dual := rfl
  loop := rfl
  rate0 := by norm_num [exFaster]
  rateR := by norm_num [exFaster]
  flt := exHalf_settings.flt
  frac := by norm_num [exFaster]
  rem0 := fun _ => le_refl _
  linear := fun _ _ => rfl
  cubic := fun h => by cases h
  pts := fun _ => by simp [exFaster, InI16]

example : ∃ a', exFaster.playWav sdGeo (some ⟨exWav, 0, false⟩) (List.replicate 36 7) = .ok (true, a') ∧ a'.rd.playing = true ∧ a'.rd.nch = (2 : Nat) ∧
    a'.rd.header = ((48 + 8) / 2 : Nat) ∧ a'.rd.fileSamples = (8 / 2 / 2 : Nat) ∧ a'.rd.rate = exFaster.rd.rate ∧ a'.rd.rem = exFaster.rd.rem ∧
    a'.rd.pos1 = ((48 + 8) / 2 : Nat) + startFrame exFaster.rd * (2 : Nat) ∧ a'.rd.interp = exFaster.rd.interp ∧
    LikeInMemory Fp.ieee sdGeo true (6 + 1) a' exWav :=
  C68_wav_partial Fp.ieee ieee_representable sdGeo (by decide) (by decide) exFaster exWav_bytes (by decide) false (List.replicate 36 7) (by decide) (by decide)
    (by decide) (off := 48) ⟨Or.inr ⟨by decide, by decide⟩, by decide, by decide⟩ (nch := 2) (D := 8) (by decide) (by decide) (by decide) (by decide)
    (by decide) (by decide) (R := 2) (mm := 1) exFaster_settings (by decide) (by intro h; cases h) (by decide) (by decide) (by decide) true (by decide)

/-- **C68** is violated by cubic interpolation above rate one: before the first frame is output the reader pushes the frames before it.  In a
raw file these do not exist: three samples are asked for that the cache does not have, while the same sound from memory is an access out of bounds. -/
theorem C68_refuted : (({ rd := { interp := .quadratic, rate := 4 } } : FileReader).playRaw sdGeo (some ⟨List.replicate 1024 1, 0, false⟩) 1 >>=
      fun x => (x.2.read Fp.ideal sdGeo true 8 1).map fun x => (x.1, x.2.src.map (·.fails))) = .ok ([[0]], some 3) ∧
    ((({ rd := { interp := .quadratic, rate := 4 } } : ArrayReader).playRaw (List.replicate 512 257) 512 1).2.read Fp.ideal 8 1).map (·.1) =
      .error .outOfBounds := by
  constructor <;> decide +kernel

/-- **C68** is violated by cubic interpolation above rate one: in a WAV file the frames before the first one are the header.  A stereo file with
the frames `(1, 2)`, `(3, 4)`, at four times the speed: the first sample of each channel comes from the letters of the chunk name `data`. -/
theorem C68_header_refuted : (({ rd := { interp := .quadratic, rate := 4 } } : FileReader).playWav sdGeo (some ⟨exWav, 0, false⟩) (List.replicate 36 7) >>=
      fun x => (x.2.ticks Fp.ideal sdGeo true 8 [fun _ => true]).map fun x => x.1.map fun fx => fx.transmitted.map (·.1)) =
    .ok [[24932 :: List.replicate 127 0, 24948 :: List.replicate 127 0]] := by
  decide +kernel

end TVP
