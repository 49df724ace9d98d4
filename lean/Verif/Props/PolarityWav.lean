import Verif.Props.Polarity
import Verif.Props.LoopStreamRev

/-!
# Property C96 for WAV files
-/

namespace TVP
open Spec

variable {fp : Fp}

theorem tick_interp {fuel : Nat} {b b' : ArrayReader} {al : Nat → Bool} {fx : Fx} (h : b.tick fp fuel al = .ok (fx, b')) : b'.rd.interp = b.rd.interp := by
  unfold ArrayReader.tick at h
  obtain ⟨⟨fx1, b1⟩, h1, h⟩ := bind_ok_iff.1 h
  have k : b1.rd.interp = b.rd.interp := by
    unfold ArrayReader.update at h1
    refine ((update_same (Q := fun (x _ : ArrayReader) => x.rd.interp = b.rd.interp) (rd := b.read fp fuel blockSamples) ?_ rfl al) _ _ h1 h1).2
    intro x y hx hy
    rw [hx] at hy
    refine ⟨by rw [Except.ok.inj hy], ?_⟩
    unfold ArrayReader.read at hx
    obtain ⟨o, ho, hx⟩ := bind_ok_iff.1 hx
    cases hx
    exact (read_conf ho).interp
  simp only at h
  split at h
  · cases h; exact k
  · rename_i e _
    cases h
    cases e <;> exact k

/-- Speeds up to `R`, with interpolation up to normal speed. -/
def Spec.SlowDeeds (R : Int) (k : Interp) (as : List Deed) : Prop := ∀ v, Deed.speed v ∈ as → 0 ≤ v ∧ v ≤ R ∧ (k ≠ .none → v ≤ 1)

theorem Spec.SlowDeeds.allowed {R : Int} {k : Interp} {fuel : Nat} : ∀ {as : List Deed} {b : ArrayReader}, SlowDeeds R k as → b.rd.interp = k → Allowed fp fuel (SmoothUpTo R) b as
  | [], _, _, _ => trivial
  | .tick _ :: as, b, h, hk => fun _ _ ht => Spec.SlowDeeds.allowed (as := as) (fun v hv => h v (List.mem_cons_of_mem _ hv)) ((tick_interp ht).trans hk)
  | .speed v :: as, b, h, hk => by
    obtain ⟨h1, h2, h3⟩ := h v List.mem_cons_self
    refine ⟨⟨⟨h1, h2, fun e => h3 ?_, fun e hv => absurd (h3 ?_) (not_le.2 hv)⟩, fun e => h3 ?_⟩, Spec.SlowDeeds.allowed (as := as) (fun v hv => h v (List.mem_cons_of_mem _ hv)) ((rate_interp b.rd v).trans hk)⟩
    all_goals
      rw [← hk, e]
      decide

theorem raw_sample {m : List Nat} {off nch D j : Nat} (hj : j < D / 2 / nch * nch) : fileSample (rawOf m off nch D) j = dataSample m (off + 8) j := by
  rw [← rawOf_sample hj]
  have := fileSample_data (rawOf m off nch D) (start := 0) (by decide) j
  rwa [Nat.zero_div, Nat.zero_add] at this

theorem wavs_flip (he : fp.Even) (hfp : Representable fp) (cub : Bool) {g : Geo} (hB : g.B < 16384) (hNB : g.N * g.B ≤ 2 ^ 30) (a b : FileReader) (hrd : Opposite a.rd b.rd)
    {m m' : List Nat} {off off' nch D D' : Nat} (hw : WavFile m off nch D) (hw' : WavFile m' off' nch D') (hnum : D' / 2 / nch = D / 2 / nch) (hsome : 1 ≤ D / 2 / nch)
    (hd : ∀ j < D / 2 / nch * nch, Cancel (dataSample m (off + 8) j) (dataSample m' (off' + 8) j))
    (past past' : Bool) (junk junk' : List Nat) (hj : junk.length = 36) (hj' : junk'.length = 36) (hc' : nch ≤ 32767) (hhead : a.rd.header = 0)
    {R mm : Int} (hset : SmoothSettings a.rd R) (hpts : PtsOk b.rd) (hi : a.rd.interp = .quadratic → cub = true) (hlin : a.rd.interp = .linear → a.rd.rate ≤ 1) (h8 : a.rd.interp ≠ .none → nch ≤ 8)
    (hstart : a.rd.playStart = .arbitrary → 0 ≤ a.rd.playbackStart ∧ a.rd.playbackStart ≤ (D / 2 / nch : Nat))
    (hmm0 : 0 ≤ mm) (hmm : 2 * mm + 1 ≤ g.N) (hadv : 128 * (nch * (R + 1)) + nch ≤ mm * g.B) (nullOk : Bool) {fuel : Nat} (hf : g.N ≤ fuel + 1) :
    ∃ a' b', a.playWav g (some ⟨m, 0, past⟩) junk = .ok (true, a') ∧ b.playWav g (some ⟨m', 0, past'⟩) junk' = .ok (true, b') ∧
      ∀ as : List Deed, SlowDeeds R a.rd.interp as → ∃ fxs fxs' a'' b'', a'.acts fp g nullOk (fuel + 1) as = .ok (fxs, a'') ∧
        b'.acts fp g nullOk (fuel + 1) as = .ok (fxs', b'') ∧ List.Forall₂ (Mirrored (Upside cub)) fxs fxs' := by
  have hfl := hrd.flip
  have hset' : SmoothSettings b.rd R := by
    rw [hfl] at hpts ⊢
    exact ⟨hset.dual, hset.loop, hset.rate0, hset.rateR, hset.flt, hset.frac, hset.rem0, hset.linear, hset.cubic, hpts⟩
  have hib : b.rd.interp = a.rd.interp := by rw [hfl]; rfl
  have hr := rawOf_same hw
  have hr' := rawOf_same hw'
  have hl := rawOf_length (nch := nch) hw.inFile
  have hl' := rawOf_length (nch := nch) hw'.inFile
  have h3 := hw.some
  have hle := Nat.div_mul_le_self (D / 2) nch
  have hle' := Nat.div_mul_le_self (D' / 2) nch
  have hin := hw.inFile
  have hin' := hw'.inFile
  have hpos : 0 < D / 2 / nch * nch := Nat.mul_pos hsome h3
  rw [hnum] at hl' hle'
  have hwhole : (rawOf m off nch D).length / 2 % nch = 0 := by rw [hl, Nat.mul_div_cancel_left _ (by decide), Nat.mul_mod_left]
  have hwhole' : (rawOf m' off' nch D').length / 2 % nch = 0 := by rw [hl', Nat.mul_div_cancel_left _ (by decide), Nat.mul_mod_left]
  obtain ⟨a', a1, k1, k2, k3⟩ := C91_smooth_forward_partial hfp hB hB hNB hNB a hw hr hwhole (by omega) past false junk hj hc' hhead (by omega) hset hlin h8 hstart hmm0 hmm hadv hmm0 hmm hadv
    nullOk nullOk hf hf
  obtain ⟨b', b1, j1, j2, j3⟩ := C91_smooth_forward_partial hfp hB hB hNB hNB b hw' hr' hwhole' (by omega) past' false junk' hj' hc' (by rw [hfl]; exact hhead) (by omega) hset' (by rw [hfl]; exact hlin)
    (by rw [hfl]; exact h8) (by rw [hfl, hnum]; exact hstart) hmm0 hmm hadv hmm0 hmm hadv nullOk nullOk hf hf
  obtain ⟨a2, l1, -, -, -, -, -, -, -, l2⟩ := C72_smooth_raw_partial fp hfp g hB hNB a hr.bytes (by omega) hr.small false hw.some hc' hset h8 hhead (by rw [hr.number]; exact hstart) hmm0 hmm hadv nullOk hf
  obtain ⟨b2, n1, -, -, -, -, -, -, -, n2⟩ := C72_smooth_raw_partial fp hfp g hB hNB b hr'.bytes (by omega) hr'.small false hw.some hc' hset' (by rw [hfl]; exact h8) (by rw [hfl]; exact hhead)
    (by rw [hr'.number, hfl, hnum]; exact hstart) hmm0 hmm hadv nullOk hf
  have e1 : a2 = a1 := by rw [k2] at l1; exact ((Prod.mk.inj (Except.ok.inj l1)).2).symm
  have e2 : b2 = b1 := by rw [j2] at n1; exact ((Prod.mk.inj (Except.ok.inj n1)).2).symm
  subst e1 e2
  have hs : InversePlay a b (rawOf m off nch D) (rawOf m' off' nch D') := by
    refine ⟨hrd, ?_, by rw [hl, hl'], hr.small⟩
    unfold Inverse samplesOf
    rw [hl, hl', Nat.mul_div_cancel_left _ (by decide), List.forall₂_map_left_iff, List.forall₂_map_right_iff]
    refine List.forall₂_same.2 fun j hj => ?_
    rw [List.mem_range] at hj
    rw [raw_sample hj, raw_sample (by rw [hnum]; exact hj)]
    exact hd j hj
  refine ⟨a', b', k1, j1, fun as hslow => ?_⟩
  have ia : a'.rd.interp = a.rd.interp := by rw [playWav_rd hw hj hc' k1]; rfl
  have ib : b'.rd.interp = a.rd.interp := by rw [playWav_rd hw' hj' hc' j1]; exact hib
  have ia2 : a2.rd.interp = a.rd.interp := by rw [playRaw_rd hr.small hc' k2]; rfl
  obtain ⟨fxs, a3, a4, p1, p2, -⟩ := k3 as (hslow.allowed ia)
  obtain ⟨fxs', b3, b4, q1, q2, -⟩ := j3 as (hslow.allowed ib)
  obtain ⟨gs, gs', a5, b5, r1, r2, r3⟩ := streams_flip (cub := cub) he hs hc' hi (ok' := SmoothSpeeds R) (fun r v h => h.1) k2 j2 (l2.mono (ok := SmoothUpTo R) fun _ _ h => h.1) n2 (hslow.allowed ia2)
  have e3 : gs = fxs := by rw [p2] at r1; exact ((Prod.mk.inj (Except.ok.inj r1)).1).symm
  have e4 : gs' = fxs' := by rw [q2] at r2; exact ((Prod.mk.inj (Except.ok.inj r2)).1).symm
  subst e3 e4
  exact ⟨gs, gs', a3, b3, p1, q1, r3⟩

/-- **C96** (partial), WAV files played once from beginning to end, without or with linear interpolation: the headers may differ, and if the data chunks are opposite, frame for
frame, what the two players send adds up to nothing, also while the speed is changed.

Missing: linear interpolation above normal speed, loops and backwards, and what `C72_smooth_wav_partial` leaves out. -/
theorem C96_wav_partial (he : RoundsEvenly fp) (hfp : Representable fp) {g : Geo} (hB : g.B < 16384) (hNB : g.N * g.B ≤ 2 ^ 30) (a b : FileReader) (hrd : Opposite a.rd b.rd)
    {m m' : List Nat} {off off' nch D D' : Nat} (hw : WavFile m off nch D) (hw' : WavFile m' off' nch D') (hnum : D' / 2 / nch = D / 2 / nch) (hsome : 1 ≤ D / 2 / nch)
    (hd : ∀ j < D / 2 / nch * nch, Cancel (dataSample m (off + 8) j) (dataSample m' (off' + 8) j))
    (past past' : Bool) (junk junk' : List Nat) (hj : junk.length = 36) (hj' : junk'.length = 36) (hc' : nch ≤ 32767) (hhead : a.rd.header = 0)
    {R mm : Int} (hset : SmoothSettings a.rd R) (hpts : PtsOk b.rd) (hi : a.rd.interp ≠ .quadratic) (hlin : a.rd.interp = .linear → a.rd.rate ≤ 1) (h8 : a.rd.interp ≠ .none → nch ≤ 8)
    (hstart : a.rd.playStart = .arbitrary → 0 ≤ a.rd.playbackStart ∧ a.rd.playbackStart ≤ (D / 2 / nch : Nat))
    (hmm0 : 0 ≤ mm) (hmm : 2 * mm + 1 ≤ g.N) (hadv : 128 * (nch * (R + 1)) + nch ≤ mm * g.B) (nullOk : Bool) {fuel : Nat} (hf : g.N ≤ fuel + 1) :
    ∃ a' b', a.playWav g (some ⟨m, 0, past⟩) junk = .ok (true, a') ∧ b.playWav g (some ⟨m', 0, past'⟩) junk' = .ok (true, b') ∧
      ∀ as : List Deed, SlowDeeds R a.rd.interp as → ∃ fxs fxs' a'' b'', a'.acts fp g nullOk (fuel + 1) as = .ok (fxs, a'') ∧
        b'.acts fp g nullOk (fuel + 1) as = .ok (fxs', b'') ∧ List.Forall₂ (Mirrored Cancel) fxs fxs' := by
  obtain ⟨a', b', h1, h2, h⟩ := wavs_flip (cub := false) he hfp hB hNB a b hrd hw hw' hnum hsome hd past past' junk junk' hj hj' hc' hhead hset hpts (fun e => absurd e hi) hlin h8 hstart hmm0 hmm hadv nullOk hf
  refine ⟨a', b', h1, h2, fun as hall => ?_⟩
  obtain ⟨fxs, fxs', a'', b'', e1, e2, e3⟩ := h as hall
  exact ⟨fxs, fxs', a'', b'', e1, e2, e3.imp fun _ _ k => k.weaken fun _ _ => upside_cancel⟩

/-- **C96** (partial), WAV files with any interpolation: but for samples that are clipped. -/
theorem C96_wav_cubic_partial (he : RoundsEvenly fp) (hfp : Representable fp) {g : Geo} (hB : g.B < 16384) (hNB : g.N * g.B ≤ 2 ^ 30) (a b : FileReader) (hrd : Opposite a.rd b.rd)
    {m m' : List Nat} {off off' nch D D' : Nat} (hw : WavFile m off nch D) (hw' : WavFile m' off' nch D') (hnum : D' / 2 / nch = D / 2 / nch) (hsome : 1 ≤ D / 2 / nch)
    (hd : ∀ j < D / 2 / nch * nch, Cancel (dataSample m (off + 8) j) (dataSample m' (off' + 8) j))
    (past past' : Bool) (junk junk' : List Nat) (hj : junk.length = 36) (hj' : junk'.length = 36) (hc' : nch ≤ 32767) (hhead : a.rd.header = 0)
    {R mm : Int} (hset : SmoothSettings a.rd R) (hpts : PtsOk b.rd) (hlin : a.rd.interp = .linear → a.rd.rate ≤ 1) (h8 : a.rd.interp ≠ .none → nch ≤ 8)
    (hstart : a.rd.playStart = .arbitrary → 0 ≤ a.rd.playbackStart ∧ a.rd.playbackStart ≤ (D / 2 / nch : Nat))
    (hmm0 : 0 ≤ mm) (hmm : 2 * mm + 1 ≤ g.N) (hadv : 128 * (nch * (R + 1)) + nch ≤ mm * g.B) (nullOk : Bool) {fuel : Nat} (hf : g.N ≤ fuel + 1) :
    ∃ a' b', a.playWav g (some ⟨m, 0, past⟩) junk = .ok (true, a') ∧ b.playWav g (some ⟨m', 0, past'⟩) junk' = .ok (true, b') ∧
      ∀ as : List Deed, SlowDeeds R a.rd.interp as → ∃ fxs fxs' a'' b'', a'.acts fp g nullOk (fuel + 1) as = .ok (fxs, a'') ∧
        b'.acts fp g nullOk (fuel + 1) as = .ok (fxs', b'') ∧ List.Forall₂ (Mirrored CancelOrClip) fxs fxs' := by
  obtain ⟨a', b', h1, h2, h⟩ := wavs_flip (cub := true) he hfp hB hNB a b hrd hw hw' hnum hsome hd past past' junk junk' hj hj' hc' hhead hset hpts (fun _ => rfl) hlin h8 hstart hmm0 hmm hadv nullOk hf
  refine ⟨a', b', h1, h2, fun as hall => ?_⟩
  obtain ⟨fxs, fxs', a'', b'', e1, e2, e3⟩ := h as hall
  exact ⟨fxs, fxs', a'', b'', e1, e2, e3.imp fun _ _ k => k.weaken fun _ _ => upside_clip⟩

/-- **C96** (partial), raw files, whenever both are played as from memory (C72, C74, C82 and the like say when: to the end, round and round, backwards, to and fro, with fades): what
the two players send adds up to nothing, whatever changes of speed `ok` allows.

Missing: cubic interpolation of loud sounds (`C96_cubic_refuted`). -/
theorem C96_streams_partial (he : RoundsEvenly fp) {g g' : Geo} {nullOk nullOk' : Bool} {fuel fuel' : Nat} {a b a' b' : FileReader} {m m' : List Nat} (hs : InversePlay a b m m')
    {nch : Nat} (hc' : nch ≤ 32767) {past past' : Bool} (hi : a.rd.interp ≠ .quadratic) {ok ok' : Rd → ℚ → Prop} (hok : ∀ r r' v, Opposite r r' → ok r v → ok' r' v)
    (h1 : a.playRaw g (some ⟨m, 0, past⟩) nch = .ok (true, a')) (h2 : b.playRaw g' (some ⟨m', 0, past'⟩) nch = .ok (true, b'))
    (h : LikeInMemoryAt fp g nullOk fuel a' m ok) (h' : LikeInMemoryAt fp g' nullOk' fuel' b' m' ok') {as : List Deed} (hall : Allowed fp fuel ok ⟨a'.rd, some (samplesOf m)⟩ as) :
    ∃ fxs fxs' a'' b'', a'.acts fp g nullOk fuel as = .ok (fxs, a'') ∧ b'.acts fp g' nullOk' fuel' as = .ok (fxs', b'') ∧ List.Forall₂ (Mirrored Cancel) fxs fxs' := by
  obtain ⟨fxs, fxs', a'', b'', e1, e2, e3⟩ := streams_flip (cub := false) he hs hc' (fun e => absurd e hi) (fun r v k => hok r _ v (opposite_flip r) k) h1 h2 h h' hall
  exact ⟨fxs, fxs', a'', b'', e1, e2, e3.imp fun _ _ k => k.weaken fun _ _ => upside_cancel⟩

/-! ## Examples -/

/-- The WAV file of the other examples, upside down. -/
def exWavInverse : List Nat := wav exFields (some [73, 78, 70, 79]) 8 [255, 255, 254, 255, 253, 255, 252, 255]

theorem exWavInverse_file : WavFile exWavInverse 48 2 8 :=
  ⟨by unfold IsBytes; decide, by decide, by decide, by decide, ⟨Or.inr ⟨by decide, by decide⟩, by decide, by decide⟩, by decide, by decide, by decide, by decide, by decide⟩

example : ∃ a' b', exSlowLinear.playWav sdGeo (some ⟨exWav, 0, false⟩) (List.replicate 36 7) = .ok (true, a') ∧
    exSlowLinear.playWav sdGeo (some ⟨exWavInverse, 0, true⟩) (List.replicate 36 9) = .ok (true, b') ∧
    ∀ as : List Deed, SlowDeeds 1 .linear as → ∃ fxs fxs' a'' b'', a'.acts Fp.ieee sdGeo true (6 + 1) as = .ok (fxs, a'') ∧
      b'.acts Fp.ieee sdGeo true (6 + 1) as = .ok (fxs', b'') ∧ List.Forall₂ (Mirrored Cancel) fxs fxs' :=
  C96_wav_partial ieee_evenly ieee_representable (by decide) (by decide) exSlowLinear exSlowLinear (opposite_new rfl) exWav_file exWavInverse_file rfl (by decide) (by unfold Cancel; decide +kernel)
    false true _ _ (by decide) (by decide) (by decide) rfl (R := 1) (mm := 2) exSlowLinear_settings exSlowLinear_settings.pts (by decide) (fun _ => by norm_num [exSlowLinear]) (fun _ => by decide)
    (fun h => nomatch h) (by decide) (by decide) (by decide) true (by decide)

example : ∃ a' b', exSmooth.playWav sdGeo (some ⟨exWav, 0, false⟩) (List.replicate 36 7) = .ok (true, a') ∧
    exSmooth.playWav sdGeo (some ⟨exWavInverse, 0, true⟩) (List.replicate 36 9) = .ok (true, b') ∧
    ∀ as : List Deed, SlowDeeds 1 exSmooth.rd.interp as → ∃ fxs fxs' a'' b'', a'.acts Fp.ieee sdGeo true (6 + 1) as = .ok (fxs, a'') ∧
      b'.acts Fp.ieee sdGeo true (6 + 1) as = .ok (fxs', b'') ∧ List.Forall₂ (Mirrored CancelOrClip) fxs fxs' :=
  C96_wav_cubic_partial ieee_evenly ieee_representable (by decide) (by decide) exSmooth exSmooth (opposite_new rfl) exWav_file exWavInverse_file rfl (by decide) (by unfold Cancel; decide +kernel)
    false true _ _ (by decide) (by decide) (by decide) rfl (R := 1) (mm := 2) exSmooth_settings exSmooth_settings.pts (fun h => nomatch h) (fun _ => by decide)
    (fun h => nomatch h) (by decide) (by decide) (by decide) true (by decide)

theorem exShortBack_tape {x y : Nat} (hx : x < 256) (hy : y < 256) (past : Bool) : ∃ a', exShortBack.playRaw sdGeo (some ⟨exTape x y 20000, 0, past⟩) (1 : Nat) = .ok (true, a') ∧
    LikeInMemoryAt Fp.ieee sdGeo true (6 + 2) a' (exTape x y 20000) (SpeedsBack Fp.ieee 2) := by
  obtain ⟨a', h1, -, -, -, -, -, -, -, -, -, h⟩ := C72_loop_back_raw_partial Fp.ieee ieee_representable sdGeo (by decide) (by decide) exShortBack (exTape_bytes hx hy 20000)
    (by rw [exTape_length]; decide) past (nch := 1) (by decide) (by decide) exShortBack_settings rfl
    (P := 19009) (by show (19009 : Int) = _; decide)
    ⟨by decide, by decide, by rw [exTape_length]; decide, by decide, by rw [exTape_length]; decide, by decide, by rw [exTape_length]; decide,
      Or.inr ⟨by decide, by decide⟩⟩ (mm := 1) (by decide) (by decide) (by decide) true (fuel := 6) (by decide)
  exact ⟨a', h1, h⟩

/-- Ten frames near the end of a file, repeated backwards. -/
example : ∃ a' b', exShortBack.playRaw sdGeo (some ⟨exTape 5 5 20000, 0, false⟩) (1 : Nat) = .ok (true, a') ∧ exShortBack.playRaw sdGeo (some ⟨exTape 251 250 20000, 0, true⟩) (1 : Nat) = .ok (true, b') ∧
    ∀ as : List Deed, Allowed Fp.ieee (6 + 2) (SpeedsBack Fp.ieee 2) ⟨a'.rd, some (samplesOf (exTape 5 5 20000))⟩ as → ∃ fxs fxs' a'' b'', a'.acts Fp.ieee sdGeo true (6 + 2) as = .ok (fxs, a'') ∧
      b'.acts Fp.ieee sdGeo true (6 + 2) as = .ok (fxs', b'') ∧ List.Forall₂ (Mirrored Cancel) fxs fxs' := by
  obtain ⟨a', h1, h⟩ := exShortBack_tape (x := 5) (y := 5) (by decide) (by decide) false
  obtain ⟨b', h2, h'⟩ := exShortBack_tape (x := 251) (y := 250) (by decide) (by decide) true
  refine ⟨a', b', h1, h2, fun as hall => C96_streams_partial ieee_evenly
    ⟨opposite_new rfl, exTape_inverse (by decide) 20000, by rw [exTape_length, exTape_length], by rw [exTape_length]; decide⟩ (by decide) (by decide)
    (fun r r' v ho hv => ?_) h1 h2 h h' hall⟩
  rw [ho.1]
  exact hv

end TVP
