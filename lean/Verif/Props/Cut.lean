import Verif.Lemmas.Cut
import Verif.Props.EndToEnd

/-!
# Property C85: a WAV file that was cut off plays what there is of it
-/

namespace TVP
open Spec

/-- What `playWav` leaves behind, for a file that may hold fewer samples than its header says. -/
theorem cut_start {g : Geo} (hB : g.B < 16384) (hN : 1 ≤ g.N) (hNB : g.N * g.B ≤ 2 ^ 30) (a : FileReader) {m : List Nat}
    (hb : IsBytes m) (hm : m.length < 2 ^ 31) (past : Bool) (junk : List Nat) (hj : junk.length = 36) (hg : GoodHeader m)
    (hdep : leVal (slice m 34 2) = 16) {off : Nat} (hda : DataAt m off) {nch D : Nat} (hn : leVal (slice m 22 2) = nch) (hc : 1 ≤ nch) (hc' : nch ≤ 32767)
    (hD : leVal (slice m (off + 4) 4) = D) (hroom : off + 8 < m.length) {R mm : Int} (hset : ForwardSettings a.rd R)
    (hstart : a.rd.playStart = .arbitrary → 0 ≤ a.rd.playbackStart ∧ a.rd.playbackStart ≤ (D / 2 / nch : Nat) ∧
      off + 8 + 2 * (a.rd.playbackStart * nch) ≤ m.length)
    (hmm0 : 0 ≤ mm) (hmm : 2 * mm + 1 ≤ g.N) :
    ∃ a', a.playWav g (some ⟨m, 0, past⟩) junk = .ok (true, a') ∧ a'.rd.playing = true ∧ a'.rd.nch = nch ∧ a'.rd.header = ((off + 8) / 2 : Nat) ∧
      a'.rd.fileSamples = (D / 2 / nch : Nat) ∧ a'.rd.rate = a.rd.rate ∧ a'.rd.rem = a.rd.rem ∧
      a'.rd.pos1 = ((off + 8) / 2 : Nat) + startFrame a.rd * nch ∧ 0 ≤ startFrame a.rd ∧ startFrame a.rd ≤ (D / 2 / nch : Nat) ∧
      FwdAny R ((off + 8) / 2 : Nat) (D / 2 / nch : Nat) nch a'.rd ∧ ∃ c, a'.src = some c ∧ CutSrc m g mm a'.rd.pos1 c := by
  have hsz : i32 (m.length : Int) = m.length := by unfold i32; omega
  obtain ⟨f', hp, hfb, hpast⟩ := playParseWav_good
    (r := { a.close.rd with fileSize := i32 (m.length : Int) }) (past := past) hj hb hm hg hdep hda
  have hch : u16 (parsed m).numChannels = nch := by
    simp only [parsed]; rw [u16_i16, hn]; unfold u16; omega
  rw [hch, hD] at hp
  have hset' : ForwardSettings ({ a.close.rd with fileSize := i32 (m.length : Int) }.setNumChannels nch) R :=
    setNumChannels_settings (r := { a.close.rd with fileSize := i32 (m.length : Int) })
      ⟨⟨hset.plain.dual, hset.plain.interp⟩, hset.loop, hset.rate0, hset.rateR, hset.flt, hset.frac⟩ nch
  obtain ⟨s1, s2, s3, s4, s5, s6⟩ := setNumChannels_rest { a.close.rd with fileSize := i32 (m.length : Int) } nch
  have hn' := setNumChannels_nch_small { a.close.rd with fileSize := i32 (m.length : Int) } (n := nch) (by omega) (by omega)
  simp only at s1 s2 s3 s4 s5 s6
  have s6' := s6.trans hsz
  clear s6
  unfold FileReader.playWav FileReader.playFile
  simp only [if_true, Dev.size]
  rw [hp]
  simp only [ok_bind, Bool.not_true, Bool.false_eq_true, if_false]
  clear hp
  generalize Rd.setNumChannels { a.close.rd with fileSize := i32 (m.length : Int) } nch = r0 at *
  obtain ⟨r1, hr1⟩ : ∃ r1 : Rd, r1 = { r0 with header := ((off + 8) / 2 : Nat), fileSamples := (D / 2 : Nat) } := ⟨_, rfl⟩
  rw [← hr1]
  have t1 : r1.header = ((off + 8) / 2 : Nat) := by rw [hr1]
  have t2 : r1.fileSamples = (D / 2 : Nat) := by rw [hr1]
  have t3 : r1.nch = nch := by rw [hr1]; exact hn'
  have t4 : r1.fileSize = m.length := by rw [hr1]; exact s6'
  have t5 : ForwardSettings r1 R := by
    rw [hr1]; exact ⟨⟨hset'.plain.dual, hset'.plain.interp⟩, hset'.loop, hset'.rate0, hset'.rateR, hset'.flt, hset'.frac⟩
  have t6 : r1.playStart = a.rd.playStart := by rw [hr1]; exact s2
  have t7 : r1.playbackStart = a.rd.playbackStart := by rw [hr1]; exact s3
  have t8 : r1.rate = a.rd.rate := by rw [hr1]; exact s4
  have t9 : r1.rem = a.rd.rem := by rw [hr1]; exact s5
  clear hr1
  have hH : 2 * (((off + 8) / 2 : Nat) : Int) < m.length := by clear hsz hch hn hD hdep; omega
  have hst : startFrame r1 = startFrame a.rd := by unfold startFrame; rw [t6, t7]
  have hFe : r1.fileSamples.tdiv r1.nch = (D / 2 / nch : Nat) := by rw [t2, t3, Int.tdiv_eq_ediv_of_nonneg (by omega), ← Int.natCast_ediv]
  have hNB' : (g.N : Int) * g.B ≤ 2 ^ 30 := by exact_mod_cast hNB
  have hs01 : 0 ≤ startFrame a.rd ∧ startFrame a.rd ≤ (D / 2 / nch : Nat) ∧ off + 8 + 2 * (startFrame a.rd * nch) ≤ m.length := by
    unfold startFrame; split
    · rename_i e; exact hstart e
    · exact ⟨le_refl _, Int.natCast_nonneg _, by rw [zero_mul]; clear hsz hch hn hD hdep hstart; omega⟩
  obtain ⟨a', k1, k2, k3, k4, k5, k6, k7, k8, k9⟩ := playFinish_within (m := m) (g := g) (mm := mm) (r := r1) (f := f') (R := R) hm hN hmm0 hmm
    (by clear hsz hch hn hD hdep; omega) hfb t4 (by rw [t1]; omega) (by rw [t1]; exact hH) (by rw [t3]; omega) t5.plain.dual t5.plain.interp t5.loop t5.rate0
    t5.rateR t5.flt t5.frac (by rw [t2]; omega)
    (by rw [hst, t1, t3]; have := hs01.2.2; clear hsz hch hn hD hdep hs01 hstart; omega) (by rw [hst]; exact hs01.1) (by rw [hst, hFe]; exact hs01.2.1)
  rw [hFe, t1, t3] at k2
  obtain ⟨q1, c, kk, L, q2, q3, q4, q5⟩ := k2.live k3
  have hp0 : 0 ≤ startFrame a.rd * nch := mul_nonneg hs01.1 (Int.natCast_nonneg _)
  have hpos : 0 ≤ a'.rd.pos1 ∧ 2 * a'.rd.pos1 ≤ m.length := by
    rw [k9, hst, t1, t3]
    have := hs01.2.2
    generalize startFrame a.rd * (nch : Int) = w at *
    clear * - this hp0
    omega
  refine ⟨a', k1, k3, k4.trans t3, k5.trans t1, k6.trans hFe, k7.trans t8, k8.trans t9, by rw [k9, hst, t1, t3], hs01.1, hs01.2.1, q1, c, q2, q3.reached, q3.loop,
    playFinish_tail hB hfb k1 q1.rate0 hpos.1 hpos.2 (by clear * - hpos hm hNB'; omega) c q2, fun _ => ⟨kk, L, q3, q4, q5⟩⟩

/-- **C85**.  A WAV file (16 bit, data chunk at an even byte) whose data chunk may claim more bytes than the file holds is played
forwards at a rate `r` without looping and interpolation, any blocks can or cannot be allocated at each update, and each event
is serviced before the next update.  Playback goes on for as many frames as the header says, nothing undefined happens, and at
the instant `t` at which frame `i = ⌊x + t r⌋` is due, each channel whose sample lies in the file gets that sample.  A sample in
a buffer block that begins behind the file's end is silent, whether (serial flash, LittleFS) or not (SD) one can seek past the
end: on an SD card the failed seek leaves the file at its end, because the blocks are read in order. -/
theorem C85_cut_partial (fp : Fp) (hfp : Representable fp) (g : Geo) (hB : g.B < 16384) (hNB : g.N * g.B ≤ 2 ^ 30) (a : FileReader) {m : List Nat}
    (hb : IsBytes m) (hm : m.length < 2 ^ 31) (past : Bool) (junk : List Nat) (hj : junk.length = 36) (hg : GoodHeader m)
    (hdep : leVal (slice m 34 2) = 16) {off : Nat} (hda : DataAt m off) (heven : off % 2 = 0) {nch D : Nat} (hn : leVal (slice m 22 2) = nch)
    (hc : 1 ≤ nch) (hc' : nch ≤ 32767) (hD : leVal (slice m (off + 4) 4) = D) (hroom : off + 8 < m.length)
    {R mm : Int} (hset : ForwardSettings a.rd R) {p : Nat} (hgrid : GridRate p a.rd.rate) (hrem : OnGrid p a.rd.rem) (hrem0 : 0 ≤ a.rd.rem)
    (hstart : a.rd.playStart = .arbitrary → 0 ≤ a.rd.playbackStart ∧ a.rd.playbackStart ≤ (D / 2 / nch : Nat) ∧
      off + 8 + 2 * (a.rd.playbackStart * nch) ≤ m.length)
    (hfits : (((off + 8) / 2 : Nat) : Int) + nch * ((D / 2 / nch : Nat) + R + 1) ≤ 2147483647)
    (hmm0 : 0 ≤ mm) (hmm : 2 * mm + 1 ≤ g.N) (hadv : 128 * (nch * (R + 1)) ≤ mm * g.B) (nullOk : Bool) {fuel : Nat} (hf : g.N ≤ fuel + 1) :
    ∃ a', a.playWav g (some ⟨m, 0, past⟩) junk = .ok (true, a') ∧ ∀ als : List (Nat → Bool),
      let x : ℚ := (if a.rd.playStart = .arbitrary then a.rd.playbackStart else 0 : Int) + a.rd.rem
      ∃ heard : Nat → Nat → Int,
        let told := pathPlay heard nch (instants (D / 2 / nch : Nat) x a.rd.rate) (some 0) als
        (∃ a'', a'.ticks fp g nullOk (fuel + 1) als = .ok (told.1, a'') ∧ a''.rd.playing = told.2.isSome) ∧
        ∀ t i ch : Nat, ⌊x + t * a.rd.rate⌋ = i → i < D / 2 / nch → ch < nch →
          (off + 8 + 2 * (i * nch + ch) + 2 ≤ m.length → heard t ch = dataSample m (off + 8) (i * nch + ch)) ∧
          (m.length ≤ 2 * (((off + 8) / 2 + i * nch + ch) / g.B * g.B) → heard t ch = 0) := by
  have hNB' : (g.N : Int) * g.B ≤ 2 ^ 30 := by exact_mod_cast hNB
  have hB0 : (0 : Int) < g.B := by exact_mod_cast g.B_pos
  obtain ⟨a', k1, k2, k3, k4, k5, k6, k7, k8, hs0, hs1, k9, c, k10, k11⟩ := cut_start hB (by omega) hNB a hb hm past junk hj hg hdep hda hn hc hc' hD hroom hset hstart hmm0 hmm
  refine ⟨a', k1, fun als => ?_⟩
  clear k1 hj
  have hR : 0 ≤ R := by
    have : (0 : ℚ) ≤ R := le_trans hset.rate0 hset.rateR
    exact_mod_cast this
  have h1 : mm * g.B ≤ g.N * g.B := mul_le_mul_of_nonneg_right (by omega) (le_of_lt hB0)
  have h2 : R + 1 ≤ nch * (R + 1) := le_mul_of_one_le_left (by omega) (by omega)
  set F : Int := ((D / 2 / nch : Nat) : Int) with hF
  set H : Nat := (off + 8) / 2 with hH
  have hF0 : 0 ≤ F := by rw [hF]; exact Int.natCast_nonneg _
  set s : Int := if a.rd.playStart = .arbitrary then a.rd.playbackStart else 0 with hs
  have hs' : startFrame a.rd = s := rfl
  rw [hs'] at hs0 hs1 k8
  have hrem1 : a.rd.rem < 1 := lt_of_abs_lt hset.frac
  have hfl : ⌊(s : ℚ) + a.rd.rem⌋ = s := by
    rw [Int.floor_eq_iff]; constructor <;> linarith
  have hx0 : 0 ≤ (s : ℚ) + a.rd.rem := add_nonneg (by exact_mod_cast hs0) hrem0
  have hfwd : Fwd a'.rd p R ((s : ℚ) + a.rd.rem) := by
    refine ⟨k9.plain, k9.loop, k9.rate0, by rw [k6]; exact hgrid, ?_, hx0, by rw [hfl, k8, k4, k3], by rw [hfl, k7]; ring, by rw [k4]; omega,
      by rw [k5]; exact hF0, k9.rateR, by rw [k4, k3, k5]; exact hfits, by rw [hfl, k5]; omega⟩
    exact OnGrid.add (OnGrid.int p s) hrem
  have hcut : Cut m g mm H nch F p R ((s : ℚ) + a.rd.rem) a.rd.rate (some 0) a' := by
    refine ⟨k2, k3, fun k hk => ?_⟩
    cases hk
    exact ⟨by simpa using hfwd, k9, k6, c, k10, k11⟩
  obtain ⟨heard, a'', j1, j2, j3⟩ := hcut.ticks (fp := fp) hfp hB hb (by omega) (by omega) hc hset.rate0 hmm0 hmm hadv hF0 (by omega) hfits nullOk hf als
  refine ⟨heard, ⟨a'', j2, j3.playing⟩, fun t i ch hi hiF hch => ?_⟩
  obtain ⟨q1, q2⟩ := j1 t i hi (by rw [hF]; exact_mod_cast hiF) ch hch
  refine ⟨fun hin => ?_, q2⟩
  rw [q1 (by omega), add_assoc, fileSample_data m (start := off + 8) (by omega)]

/-! ## What there is not of it -/

/-- Mono, 16 bit: three samples in the file where the header claims `n` bytes of them. -/
def exCutWav (n : Nat) : List Nat := wav { exFields with channels := 1 } none n [1, 0, 2, 0, 3, 0]

theorem exCutWav_bytes : IsBytes (exCutWav 2000) := by unfold IsBytes exCutWav; decide

/-- Played at half speed from an SD card. -/
example : ∃ a', exHalf.playWav sdGeo (some ⟨exCutWav 2000, 0, false⟩) (List.replicate 36 7) = .ok (true, a') ∧ ∀ als : List (Nat → Bool),
    let x : ℚ := (if exHalf.rd.playStart = .arbitrary then exHalf.rd.playbackStart else 0 : Int) + exHalf.rd.rem
    ∃ heard : Nat → Nat → Int,
      let told := pathPlay heard 1 (instants (2000 / 2 / 1 : Nat) x exHalf.rd.rate) (some 0) als
      (∃ a'', a'.ticks Fp.ieee sdGeo true (6 + 1) als = .ok (told.1, a'') ∧ a''.rd.playing = told.2.isSome) ∧
      ∀ t i ch : Nat, ⌊x + t * exHalf.rd.rate⌋ = i → i < 2000 / 2 / 1 → ch < 1 →
        (36 + 8 + 2 * (i * 1 + ch) + 2 ≤ (exCutWav 2000).length → heard t ch = dataSample (exCutWav 2000) (36 + 8) (i * 1 + ch)) ∧
        ((exCutWav 2000).length ≤ 2 * (((36 + 8) / 2 + i * 1 + ch) / sdGeo.B * sdGeo.B) → heard t ch = 0) :=
  C85_cut_partial Fp.ieee ieee_representable sdGeo (by decide) (by decide) exHalf exCutWav_bytes (by decide) false (List.replicate 36 7) (by decide) (by decide)
    (by decide) (off := 36) ⟨Or.inl ⟨by decide, rfl⟩, by decide, by decide⟩ (by decide) (nch := 1) (D := 2000) (by decide) (by decide) (by decide)
    (by decide) (by decide) (R := 1) (mm := 1) exHalf_settings (p := 1)
    ⟨by norm_num, ⟨1, by norm_num [exHalf]⟩, by norm_num [exHalf, abs_of_pos], by norm_num [exHalf, abs_of_pos]⟩
    (by simpa [exHalf] using OnGrid.int 1 0) (by norm_num [exHalf]) (by intro h; cases h) (by decide) (by decide) (by decide) (by decide) true (by decide)

/-- What the first update sends to the left output. -/
def firstLeft (g : Geo) (past : Bool) (m : List Nat) (r : Rd := {}) : M (List Int × Option Ev × Bool) := do
  let (_, a) ← FileReader.playWav g { rd := r } (some ⟨m, 0, past⟩) (List.replicate 36 7)
  let (fx, a) ← a.tick Fp.ideal g true 9 (fun _ => true)
  return ((fx.transmitted.headD ([], 0)).1, fx.event, a.rd.playing)

/-- **C85 refuted** (silence after the end).  Behind the end of a file that was cut off one hears what happens to be in the rest of
the last buffer: here uninitialised memory filled with 7s, 103 samples of it. -/
theorem C85_stale_refuted : (firstLeft ⟨7, 2, fun _ => List.replicate 256 7⟩ true (exCutWav 2000)) =
    .ok ([1, 2, 3] ++ List.replicate 103 1799 ++ List.replicate 22 0, some .reload, true) := by decide +kernel

/-- **C85 refuted** (any length).  If the header gives the length as unknown, as programs do that write to a pipe, nothing is heard of
the samples there are: the end lies before the beginning, in 32 bits. -/
theorem C85_unknown_refuted : (firstLeft ⟨7, 2, fun _ => List.replicate 256 7⟩ true (exCutWav 4294967295)) =
    .ok (List.replicate 128 0, some .close, false) := by decide +kernel

/-- **C85 refuted** (silence after the end, starting there).  On an SD card the seek to a start behind the end fails, and the file is
read from where parsing the header left it: started at frame 490 of a file that holds three, the player plays these three there. -/
theorem C85_start_refuted : (firstLeft ⟨7, 2, fun _ => List.replicate 256 7⟩ false (exCutWav 2000) { playStart := .arbitrary, playbackStart := 490 }) =
    .ok ([1, 2, 3] ++ List.replicate 125 1799, some .reload, true) := by decide +kernel

end TVP
