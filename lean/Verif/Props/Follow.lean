import Verif.Spec.Follow
import Verif.Lemmas.Follow
import Verif.Props.Faulty
import Verif.Props.Path

/-!
# Property C87: the position shown follows the sound
-/

namespace TVP

open Spec

theorem playFinish_size {g : Geo} {r : Rd} {f : Dev} {a : FileReader} (h : playFinish g r f = .ok (true, a)) : a.rd.fileSize = r.fileSize := by
  obtain ⟨playing, fileSize, header, rate, rem, loopType, playStart, pos1, pos2, crossfade, dual, cfDur, cfOn, playbackStart, loopStart, loopFinish, fileSamples, nch, psram, interp, pts⟩ := r
  unfold playFinish at h
  simp only at h
  split at h
  · cases h
  · split at h
    · cases h
    · injection h with h
      injection h with _ h
      subst h
      cases loopType <;> rfl

theorem playWav_size {g : Geo} {a a' : FileReader} {f : Dev} {junk : List Nat} (h : a.playWav g (some f) junk = .ok (true, a')) : a'.rd.fileSize = i32 f.size := by
  unfold FileReader.playWav FileReader.playFile at h
  simp only [if_true] at h
  obtain ⟨⟨o, r1, f1⟩, e, h⟩ := bind_ok_iff.1 h
  obtain ⟨x, y, z, rfl⟩ := playParseWav_same e
  simp only at h
  split at h
  · cases h
  · have k := playFinish_size h
    rw [k]

/-- **C87** (WAV files).  A WAV file (16 bit, data chunk in the file) played forwards, without looping and interpolation, by any
list of updates, polls and speed changes, in whatever order and with whatever blocks being allocated, each read of the medium
delivering its block or nothing.  As long as there is something left to be heard, `positionMillis()` is the playing time of the
samples in front of the one to be heard next, less 2.2 ms to more 0.02 ms: those of the header, and `nch` for each frame. -/
theorem C87_wav_partial (fp : Fp) (hfp : Representable fp) {g : Geo} (hNB : g.N * g.B ≤ 2 ^ 30) (a : FileReader) {m : List Nat}
    (hb : IsBytes m) (hm : m.length < 2 ^ 31) (past : Bool) (junk : List Nat) (hj : junk.length = 36) (hg : GoodHeader m)
    (hdep : leVal (slice m 34 2) = 16) {off : Nat} (hda : DataAt m off) {nch D : Nat} (hn : leVal (slice m 22 2) = nch) (hc : 1 ≤ nch) (hc' : nch ≤ 32767)
    (hD : leVal (slice m (off + 4) 4) = D) (hdata : off + 8 + D ≤ m.length) (hroom : off + 8 < m.length) {R : Int}
    (hset : ForwardSettings a.rd R) (hR : nch * (R + 1) ≤ 2 ^ 30) {p : Nat} (hgrid : GridRate p a.rd.rate) (hrem : OnGrid p a.rd.rem) (hrem0 : 0 ≤ a.rd.rem)
    (hstart : a.rd.playStart = .arbitrary → 0 ≤ a.rd.playbackStart ∧ a.rd.playbackStart ≤ (D / 2 / nch : Nat))
    (hN : 1 ≤ g.N) (nullOk : Bool) {fuel : Nat} (hf : g.N ≤ fuel + 2) (rs : List ReadResult) (hrs : AllOrNothing rs) (ts : List Turn)
    (hs : ∀ v, Turn.speed v ∈ ts → 0 ≤ v ∧ v ≤ R ∧ GridRate p v) {i : Int}
    (hi : ⌊heardTo nch a.rd.rate ((if a.rd.playStart = .arbitrary then a.rd.playbackStart else 0) + a.rd.rem) ts⌋ = i) (hin : i < (D / 2 / nch : Nat)) :
    ∃ a' rs', a.playWavF g (some ⟨m, 0, past⟩) junk rs = .ok (true, a', rs') ∧
      ∃ fxs p' rs'' t, fileTurnsF fp g nullOk (fuel + 2) ⟨a', none⟩ rs' ts = .ok (fxs, p', rs'') ∧ p'.rdr.rd.playing = true ∧
        p'.rdr.positionMillis fp 44100 = .ok t ∧ timeOf ((off + 8) / 2 : Nat) + timeOf (i * nch) - 11 / 5 < t ∧
        t < timeOf ((off + 8) / 2 : Nat) + timeOf (i * nch) + 1 / 50 := by
  obtain ⟨a', rs', k1, ⟨a0, k2, k3⟩, fxs, fxs', p', rs'', b', k4, k5, _, k6, k7⟩ := C79_wav_partial fp hfp hNB a hb hm past junk hj hg hdep hda hn hc hc' hD hdata hroom hset hR hstart
    hN nullOk (fuel := fuel + 1) hf rs hrs ts (fun v h => ⟨(hs v h).1, (hs v h).2.1⟩)
  obtain ⟨a1, j1, j2, j3, j4, j5, j6, j7, j8, j9⟩ := wav_start (g := g) (mm := 0) hN hNB a hb hm past junk hj hg hdep hda hn hc hc' hD hdata hroom hset hstart
    (le_refl _) (by omega)
  have hsz := playWav_size k2
  rw [j1] at k2
  obtain rfl : a1 = a0 := by simpa using k2
  refine ⟨a', rs', k1, ?_⟩
  clear k1 k2 j1 hj hdep hg hn hD hda
  have hmul : ((D / 2 / nch : Nat) : Int) * nch ≤ (D / 2 : Nat) := by exact_mod_cast Nat.div_mul_le_self _ _
  have hR0 : 0 ≤ R := by
    have : (0 : ℚ) ≤ R := le_trans hset.rate0 hset.rateR
    exact_mod_cast this
  set F : Int := ((D / 2 / nch : Nat) : Int) with hF
  set H : Nat := (off + 8) / 2 with hH
  have hF0 : 0 ≤ F := by rw [hF]; exact Int.natCast_nonneg _
  have h3 : H + nch * (F + R + 1) = H + F * nch + nch * (R + 1) := by ring
  have hlen : (H : Int) + F * nch ≤ m.length / 2 := by omega
  have hlen2 : 2 * ((H : Int) + F * nch) ≤ m.length := by omega
  have h2m : (2 : Int) ≤ m.length := by omega
  have hHn : (0 : Int) ≤ H := Int.natCast_nonneg _
  set s : Int := if a.rd.playStart = .arbitrary then a.rd.playbackStart else 0 with hsd
  have hs' : startFrame a.rd = s := rfl
  have hs0 : 0 ≤ s ∧ s ≤ F := by
    rw [hsd]; split
    · rename_i e; exact hstart e
    · exact ⟨le_refl _, hF0⟩
  have hrem1 : a.rd.rem < 1 := lt_of_abs_lt hset.frac
  have hfl : ⌊(s : ℚ) + a.rd.rem⌋ = s := by
    rw [Int.floor_eq_iff]; constructor <;> linarith
  have hx0 : 0 ≤ (s : ℚ) + a.rd.rem := add_nonneg (by exact_mod_cast hs0.1) hrem0
  have k9 := (j9.live j2).1
  have hfwd : Fwd a1.rd p R ((s : ℚ) + a.rd.rem) := by
    refine ⟨k9.plain, k9.loop, k9.rate0, by rw [j6]; exact hgrid, ?_, hx0, by rw [hfl, j8, j4, j3, hs'], by rw [hfl, j7]; ring, by rw [j4]; omega,
      by rw [j5]; exact hF0, k9.rateR, by rw [j4, j3, j5, h3]; omega, by rw [hfl, j5]; omega⟩
    exact OnGrid.add (OnGrid.int p s) hrem
  have hsl : ((samplesOf m).length : Int) = (m.length : Int) / 2 := by unfold samplesOf; simp
  have hsz' : a1.rd.fileSize = m.length := by rw [hsz]; simp only [Dev.size]; unfold i32; omega
  obtain ⟨q, q', q'', e1, e2⟩ := Forth.turns (fp := fp) (data := samplesOf m) (H := H) (F := F) (S := m.length) (p := p) (R := R) hc (by rw [hsl]; exact hlen) fuel ts a.rd.rate ((s : ℚ) + a.rd.rem) (inMemory a' m)
    ⟨by unfold inMemory; simp only; rw [← k3]; exact j2, rfl, by unfold inMemory; simp only; rw [← k3]; exact j3, by unfold inMemory; simp only; rw [← k3]; exact j4,
      by unfold inMemory; simp only; rw [← k3]; exact j5, by unfold inMemory; simp only; rw [← k3]; exact hsz', by unfold inMemory; simp only; rw [← k3]; exact j6,
      by unfold inMemory; simp only; rw [← k3]; exact hfwd, by unfold inMemory; simp⟩
    hset.rate0 hs (by rw [hi]; exact hin)
  rw [k5] at e1
  simp only [Except.ok.injEq, Prod.mk.injEq] at e1
  obtain ⟨-, rfl⟩ := e1
  have hi0 : 0 ≤ i := by rw [← hi]; exact Int.floor_nonneg.2 e2.fwd.x0
  have hpos : b'.rdr.rd.pos1 = H + i * nch := by rw [e2.fwd.pos, e2.header, e2.chans, hi]
  have hin1 : i * nch ≤ F * nch := mul_le_mul_of_nonneg_right (by omega) (by omega)
  have hin0 : 0 ≤ i * nch := mul_nonneg hi0 (by omega)
  have hd' := e2.fwd.plain.dual
  have hsize := e2.size
  have hplay := e2.playing
  clear e2 k5 hi hs k9 hfwd j9 k7 hrs
  obtain ⟨t, t1, t2, t3⟩ := shown_near fp (r := b'.rdr.rd) (by rw [hsize]; exact h2m) (by rw [hsize]; exact_mod_cast hm) hd' (by rw [hpos]; exact add_nonneg hHn hin0) (by rw [hpos, hsize]; linarith)
  refine ⟨fxs, p', rs'', t, k4, by rw [← k6]; exact hplay, ?_, ?_, ?_⟩
  · unfold FileReader.positionMillis; rw [← k6]; exact t1
  · rw [hpos] at t2; unfold timeOf at t2 ⊢; push_cast at t2 ⊢; linarith
  · rw [hpos] at t3; unfold timeOf at t3 ⊢; push_cast at t3 ⊢; linarith

/-- Two updates at half speed, the second being refused a block, then two at normal speed; the events run late, and one block cannot be read. -/
def exFollow : List Turn := [.update fun _ => true, .update fun _ => false, .poll, .speed 1, .update fun _ => true, .poll, .update fun _ => true]

theorem exFollow_heard : ⌊heardTo 2 exHalf.rd.rate (((if exHalf.rd.playStart = .arbitrary then exHalf.rd.playbackStart else 0 : Int) : ℚ) + exHalf.rd.rem) exFollow⌋ = 320 := by decide +kernel

example : ∃ a' rs', exHalf.playWavF sdGeo (some ⟨exLongWav, 0, false⟩) (List.replicate 36 7) [.all, .short 0] = .ok (true, a', rs') ∧
    ∃ fxs p' rs'' t, fileTurnsF Fp.ieee sdGeo true (5 + 2) ⟨a', none⟩ rs' exFollow = .ok (fxs, p', rs'') ∧ p'.rdr.rd.playing = true ∧
      p'.rdr.positionMillis Fp.ieee 44100 = .ok t ∧ timeOf ((48 + 8) / 2 : Nat) + timeOf ((320 : Int) * (2 : Nat)) - 11 / 5 < t ∧
      t < timeOf ((48 + 8) / 2 : Nat) + timeOf ((320 : Int) * (2 : Nat)) + 1 / 50 :=
  C87_wav_partial Fp.ieee ieee_representable (g := sdGeo) (by decide) exHalf exLongWav_bytes (by rw [exLongWav_length]; decide) false (List.replicate 36 7) (by decide) (by decide +kernel)
    (by decide +kernel) (off := 48) ⟨Or.inr ⟨by decide +kernel, by decide +kernel⟩, by decide +kernel, by rw [exLongWav_length]; decide⟩ (nch := 2) (D := 40000) (by decide +kernel) (by decide) (by decide)
    (by decide +kernel) (by rw [exLongWav_length]) (by rw [exLongWav_length]; decide) (R := 1) exHalf_settings (by decide) (p := 1)
    ⟨by norm_num, ⟨1, by norm_num [exHalf]⟩, by norm_num [exHalf, abs_of_pos], by norm_num [exHalf, abs_of_pos]⟩
    (by simpa [exHalf] using OnGrid.int 1 0) (by norm_num [exHalf]) (by intro h; cases h) (by decide) true (by decide) _ (by intro n h; simpa using h) exFollow
    (by
      intro v hv
      have : v = 1 := by simpa [exFollow] using hv
      rw [this]
      exact ⟨by norm_num, by norm_num, GridRate.one (by norm_num)⟩)
    exFollow_heard (by decide)

/-- **C87** (the part that holds).  For a mono file whose data chunk comes right after the format chunk, `positionMillis()` is within
1.8 ms of the playing time of the frames in front of the one to be heard next.  Missing: files of two or more channels, see `C87_refuted`. -/
theorem C87_mono_partial (fp : Fp) (hfp : Representable fp) {g : Geo} (hNB : g.N * g.B ≤ 2 ^ 30) (a : FileReader) {m : List Nat}
    (hb : IsBytes m) (hm : m.length < 2 ^ 31) (past : Bool) (junk : List Nat) (hj : junk.length = 36) (hg : GoodHeader m)
    (hdep : leVal (slice m 34 2) = 16) (hda : DataAt m 36) {D : Nat} (hn : leVal (slice m 22 2) = 1)
    (hD : leVal (slice m (36 + 4) 4) = D) (hdata : 36 + 8 + D ≤ m.length) (hroom : 36 + 8 < m.length) {R : Int}
    (hset : ForwardSettings a.rd R) (hR : R + 1 ≤ 2 ^ 30) {p : Nat} (hgrid : GridRate p a.rd.rate) (hrem : OnGrid p a.rd.rem) (hrem0 : 0 ≤ a.rd.rem)
    (hstart : a.rd.playStart = .arbitrary → 0 ≤ a.rd.playbackStart ∧ a.rd.playbackStart ≤ (D / 2 : Nat))
    (hN : 1 ≤ g.N) (nullOk : Bool) {fuel : Nat} (hf : g.N ≤ fuel + 2) (rs : List ReadResult) (hrs : AllOrNothing rs) (ts : List Turn)
    (hs : ∀ v, Turn.speed v ∈ ts → 0 ≤ v ∧ v ≤ R ∧ GridRate p v) {i : Int}
    (hi : ⌊heardTo 1 a.rd.rate ((if a.rd.playStart = .arbitrary then a.rd.playbackStart else 0) + a.rd.rem) ts⌋ = i) (hin : i < (D / 2 : Nat)) :
    ∃ a' rs', a.playWavF g (some ⟨m, 0, past⟩) junk rs = .ok (true, a', rs') ∧
      ∃ fxs p' rs'' t, fileTurnsF fp g nullOk (fuel + 2) ⟨a', none⟩ rs' ts = .ok (fxs, p', rs'') ∧ p'.rdr.positionMillis fp 44100 = .ok t ∧ |t - timeOf i| < 9 / 5 := by
  obtain ⟨a', rs', h1, fxs, p', rs'', t, h2, _, h3, h4, h5⟩ := C87_wav_partial fp hfp hNB a hb hm past junk hj hg hdep hda hn (le_refl 1) (by norm_num) hD hdata hroom hset
    (by push_cast; linarith) hgrid hrem hrem0 (by rw [Nat.div_one]; exact hstart) hN nullOk hf rs hrs ts hs hi (by rw [Nat.div_one]; exact hin)
  refine ⟨a', rs', h1, fxs, p', rs'', t, h2, h3, ?_⟩
  have e : timeOf ((36 + 8) / 2 : Nat) = 220 / 441 := by norm_num [timeOf]
  rw [e, Nat.cast_one, mul_one] at h4 h5
  rw [abs_lt]
  constructor <;> linarith

/-- A mono file of 512 samples, played for 256 instants. -/
example : ∃ a' rs', exNew.playWavF sdGeo (some ⟨exHeldWav 1, 0, false⟩) (List.replicate 36 7) [.error [] 0] = .ok (true, a', rs') ∧
    ∃ fxs p' rs'' t, fileTurnsF Fp.ieee sdGeo true (5 + 2) ⟨a', none⟩ rs' [.update fun _ => true, .poll, .update fun _ => true] = .ok (fxs, p', rs'') ∧
      p'.rdr.positionMillis Fp.ieee 44100 = .ok t ∧ |t - timeOf (256 : Int)| < 9 / 5 :=
  C87_mono_partial Fp.ieee ieee_representable (g := sdGeo) (by decide) exNew (exHeldWav_bytes (n := 1) (by decide +kernel)) (by decide +kernel) false (List.replicate 36 7) (by decide) (by decide +kernel)
    (by decide +kernel) ⟨Or.inl ⟨rfl, by decide +kernel⟩, by decide +kernel, by decide +kernel⟩ (D := 1024) (by decide +kernel)
    (by decide +kernel) (by decide +kernel) (by decide +kernel) (R := 1) exNew_settings.forward (by decide) (p := 0) exNew_settings.grid exNew_settings.remGrid exNew_settings.rem0
    (by intro h; cases h) (by decide) true (by decide) _ (by intro n h; simp at h) _ (by intro v hv; simp at hv) (by decide +kernel) (by decide)

/-- **C87** fails for stereo: of a stereo file, 40 updates at normal speed are heard, that is 116 ms, and the position shown is 231 ms or more. -/
theorem C87_refuted : ∃ a' rs', exNew.playWavF sdGeo (some ⟨exLongWav, 0, false⟩) (List.replicate 36 7) [] = .ok (true, a', rs') ∧
    ∃ fxs p' rs'' t, fileTurnsF Fp.ieee sdGeo true (5 + 2) ⟨a', none⟩ rs' (ticked (List.replicate 40 fun _ => true)) = .ok (fxs, p', rs'') ∧
      p'.rdr.positionMillis Fp.ieee 44100 = .ok t ∧ timeOf (40 * 128) < 117 ∧ 230 < t := by
  obtain ⟨a', rs', h1, fxs, p', rs'', t, h2, _, h3, h4, h5⟩ := C87_wav_partial Fp.ieee ieee_representable (g := sdGeo) (by decide) exNew exLongWav_bytes (by rw [exLongWav_length]; decide) false
    (List.replicate 36 7) (by decide) (by decide +kernel)
    (by decide +kernel) (off := 48) ⟨Or.inr ⟨by decide +kernel, by decide +kernel⟩, by decide +kernel, by rw [exLongWav_length]; decide⟩ (nch := 2) (D := 40000) (by decide +kernel) (by decide) (by decide)
    (by decide +kernel) (by rw [exLongWav_length]) (by rw [exLongWav_length]; decide) (R := 1) exNew_settings.forward (by decide) (p := 0) exNew_settings.grid exNew_settings.remGrid exNew_settings.rem0
    (by intro h; cases h) (by decide) true (fuel := 5) (by decide) [] (by intro n h; simp at h) (ticked (List.replicate 40 fun _ => true)) (by
      intro v hv
      unfold ticked at hv
      simp at hv) (i := 5120) (by decide +kernel) (by decide)
  refine ⟨a', rs', h1, fxs, p', rs'', t, h2, h3, by norm_num [timeOf], ?_⟩
  have : ((230 : Int) : ℚ) < t := by
    refine lt_trans ?_ h4
    norm_num [timeOf]
  exact Int.cast_lt.1 this

end TVP
