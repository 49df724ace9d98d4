import Verif.Props.PolarityWav
import Verif.Props.Mirror

/-!
# Property C96: loops of WAV files
-/

namespace TVP
open Spec

variable {fp : Fp}

theorem rawOf_inverse {m m' : List Nat} {off off' nch D D' : Nat} (hw : WavFile m off nch D) (hw' : WavFile m' off' nch D') (hnum : D' / 2 / nch = D / 2 / nch)
    (hd : ∀ j < D / 2 / nch * nch, Cancel (dataSample m (off + 8) j) (dataSample m' (off' + 8) j)) : Inverse (samplesOf (rawOf m off nch D)) (samplesOf (rawOf m' off' nch D')) := by
  unfold Inverse samplesOf
  rw [rawOf_length hw.inFile, rawOf_length hw'.inFile, hnum, Nat.mul_div_cancel_left _ (by decide), List.forall₂_map_left_iff, List.forall₂_map_right_iff]
  refine List.forall₂_same.2 fun j hj => ?_
  rw [List.mem_range] at hj
  rw [raw_sample hj, raw_sample (by rw [hnum]; exact hj)]
  exact hd j hj

theorem speedsTo_allowed {R : Int} {fuel : Nat} : ∀ {as : List Deed} {b : ArrayReader}, (∀ v, Deed.speed v ∈ as → 0 ≤ v ∧ v ≤ R) → Allowed fp fuel (SpeedsTo R) b as
  | [], _, _ => trivial
  | .tick _ :: as, _, h => fun _ _ _ => speedsTo_allowed (as := as) fun v hv => h v (List.mem_cons_of_mem _ hv)
  | .speed v :: as, _, h => ⟨h v List.mem_cons_self, speedsTo_allowed (as := as) fun v hv => h v (List.mem_cons_of_mem _ hv)⟩

/-- **C96** (partial), loops of WAV files without interpolation, at any speed up to `R`, also while the speed is changed.  The headers may differ; if the data chunks are opposite, frame for frame,
what the two players send adds up to nothing.  The loop is to be one that is streamed as from memory in either file and in a raw file of the same frames (`GoodLoop`).

Missing: interpolation, for which see `C96_wav_smooth_loop_partial`, and what `C72_loop_wav_partial` leaves out. -/
theorem C96_wav_loop_partial (he : RoundsEvenly fp) (hfp : Representable fp) {g : Geo} (hB : g.B < 16384) (hNB : g.N * g.B ≤ 2 ^ 30) (a b : FileReader) (hrd : Opposite a.rd b.rd)
    {m m' : List Nat} {off off' nch D D' : Nat} (hw : WavFile m off nch D) (hw' : WavFile m' off' nch D') (hnum : D' / 2 / nch = D / 2 / nch)
    (hd : ∀ j < D / 2 / nch * nch, Cancel (dataSample m (off + 8) j) (dataSample m' (off' + 8) j))
    (past past' : Bool) (junk junk' : List Nat) (hj : junk.length = 36) (hj' : junk'.length = 36) (hc' : nch ≤ 32767) (hhead : a.rd.header = 0) (hin : SetWithin a.rd (D / 2 / nch))
    {R mm : Int} (hset : RepeatSettings a.rd R)
    (hloop : GoodLoop g m ((off + 8) / 2 : Nat) nch a.rd.loopStart a.rd.loopFinish (firstFrame a.rd)) (hloop' : GoodLoop g m' ((off' + 8) / 2 : Nat) nch a.rd.loopStart a.rd.loopFinish (firstFrame a.rd))
    (hraw : ∀ w : List Nat, w.length = 2 * (D / 2 / nch * nch) → GoodLoop g w 0 nch a.rd.loopStart a.rd.loopFinish (firstFrame a.rd))
    (hmm0 : 0 ≤ mm) (hmm : 2 * mm + 5 ≤ g.N) (hadv : 128 * (nch * (R + 1)) ≤ mm * g.B) (nullOk : Bool) {fuel : Nat} (hf : g.N ≤ fuel + 2) :
    ∃ a' b', a.playWav g (some ⟨m, 0, past⟩) junk = .ok (true, a') ∧ b.playWav g (some ⟨m', 0, past'⟩) junk' = .ok (true, b') ∧
      ∀ as : List Deed, (∀ v, Deed.speed v ∈ as → 0 ≤ v ∧ v ≤ R) → ∃ fxs fxs' a'' b'', a'.acts fp g nullOk (fuel + 2) as = .ok (fxs, a'') ∧
        b'.acts fp g nullOk (fuel + 2) as = .ok (fxs', b'') ∧ List.Forall₂ (Mirrored Cancel) fxs fxs' := by
  have hfl := hrd.flip
  have hr := rawOf_same hw
  have hr' := rawOf_same hw'
  have hl := rawOf_length (nch := nch) hw.inFile
  have hl' := rawOf_length (nch := nch) hw'.inFile
  rw [hnum] at hl'
  have hwhole : (rawOf m off nch D).length / 2 % nch = 0 := by rw [hl, Nat.mul_div_cancel_left _ (by decide), Nat.mul_mod_left]
  have hwhole' : (rawOf m' off' nch D').length / 2 % nch = 0 := by rw [hl', Nat.mul_div_cancel_left _ (by decide), Nat.mul_mod_left]
  have hset' : RepeatSettings b.rd R := by rw [hfl]; exact { hset with plain := ⟨hset.plain.dual, hset.plain.interp⟩ }
  have hpos : ¬ a.rd.rate < 0 := not_lt.2 hset.rate0
  have hs : SamePlay a m (rawOf m off nch D) off nch D := ⟨hw, hr, hwhole, hhead, hin, fun h => absurd h hpos⟩
  have hs' : SamePlay b m' (rawOf m' off' nch D') off' nch D' :=
    ⟨hw', hr', hwhole', by rw [hfl]; exact hhead, by rw [hfl, hnum]; exact ⟨hin.start, hin.ls, hin.lf⟩, by rw [hfl]; exact fun h => absurd h hpos⟩
  have hg' : GoodLoop g (rawOf m' off' nch D') 0 nch b.rd.loopStart b.rd.loopFinish (firstFrame b.rd) := by rw [hfl]; exact hraw _ hl'
  obtain ⟨a', a1, k1, k2, k3⟩ := C91_speeds_loop_partial hfp hB hB hNB hNB a hs past false junk hj hf hf hc' hset hloop (hraw _ hl) hmm0 hmm hadv hmm0 hmm hadv nullOk nullOk
  obtain ⟨b', b1, j1, j2, j3⟩ := C91_speeds_loop_partial hfp hB hB hNB hNB b hs' past' false junk' hj' hf hf hc' hset' (by rw [hfl]; exact hloop') hg' hmm0 hmm hadv hmm0 hmm hadv nullOk nullOk
  obtain ⟨a2, l1, -, -, -, -, -, -, -, -, -, l2⟩ := C72_loop_raw_partial fp hfp g hB hNB a hr.bytes hr.small false hw.some hc' hset hhead (hraw _ hl) hmm0 hmm hadv nullOk hf
  obtain ⟨b2, n1, -, -, -, -, -, -, -, -, -, n2⟩ := C72_loop_raw_partial fp hfp g hB hNB b hr'.bytes hr'.small false hw.some hc' hset' (by rw [hfl]; exact hhead) hg' hmm0 hmm hadv nullOk hf
  have e1 : a2 = a1 := by rw [k2] at l1; exact ((Prod.mk.inj (Except.ok.inj l1)).2).symm
  have e2 : b2 = b1 := by rw [j2] at n1; exact ((Prod.mk.inj (Except.ok.inj n1)).2).symm
  subst e1 e2
  have hs2 : InversePlay a b (rawOf m off nch D) (rawOf m' off' nch D') := ⟨hrd, rawOf_inverse hw hw' hnum hd, by rw [hl, hl'], hr.small⟩
  refine ⟨a', b', k1, j1, fun as hslow => ?_⟩
  obtain ⟨fxs, a3, a4, p1, p2, -⟩ := k3 as (speedsTo_allowed hslow)
  obtain ⟨fxs', b3, b4, q1, q2, -⟩ := j3 as (speedsTo_allowed hslow)
  obtain ⟨gs, gs', a5, b5, r1, r2, r3⟩ := streams_flip (cub := false) he hs2 hc' (fun e => by rw [hset.plain.interp] at e; cases e) (ok' := SpeedsTo R) (fun r v h => h) k2 j2 l2 n2 (speedsTo_allowed hslow)
  have e3 : gs = fxs := by rw [p2] at r1; exact ((Prod.mk.inj (Except.ok.inj r1)).1).symm
  have e4 : gs' = fxs' := by rw [q2] at r2; exact ((Prod.mk.inj (Except.ok.inj r2)).1).symm
  subst e3 e4
  exact ⟨gs, gs', a3, b3, p1, q1, r3.imp fun _ _ k => k.weaken fun _ _ => upside_cancel⟩

theorem upTo_allowed {fuel : Nat} : ∀ {as : List Deed} {b : ArrayReader}, (∀ v, Deed.speed v ∈ as → 0 ≤ v ∧ v ≤ 1) → Allowed fp fuel (UpToNormal .linear (SpeedsTo 1)) b as
  | [], _, _ => trivial
  | .tick _ :: as, _, h => fun _ _ _ => upTo_allowed (as := as) fun v hv => h v (List.mem_cons_of_mem _ hv)
  | .speed v :: as, _, h => by
    obtain ⟨h1, h2⟩ := h v List.mem_cons_self
    exact ⟨⟨⟨h1, by push_cast; exact h2⟩, abs_le.2 ⟨by linarith, h2⟩, fun e => by cases e⟩, upTo_allowed (as := as) fun v hv => h v (List.mem_cons_of_mem _ hv)⟩

/-- **C96** (partial), loops of WAV files with linear interpolation, up to normal speed, also while the speed is changed.

Missing: cubic interpolation, and what `C82_loop_wav_partial` leaves out. -/
theorem C96_wav_smooth_loop_partial (he : RoundsEvenly fp) (hfp : Representable fp) {g : Geo} (hB : g.B < 16384) (hNB : g.N * g.B ≤ 2 ^ 30) (a b : FileReader) (hrd : Opposite a.rd b.rd)
    {m m' : List Nat} {off off' nch D D' : Nat} (hw : WavFile m off nch D) (hw' : WavFile m' off' nch D') (hnum : D' / 2 / nch = D / 2 / nch)
    (hd : ∀ j < D / 2 / nch * nch, Cancel (dataSample m (off + 8) j) (dataSample m' (off' + 8) j))
    (past past' : Bool) (junk junk' : List Nat) (hj : junk.length = 36) (hj' : junk'.length = 36) (hc8 : nch ≤ 8) (hhead : a.rd.header = 0) (hin : SetWithin a.rd (D / 2 / nch))
    {mm : Int} (hset : RepeatSettings a.rd 1) (hpts : PtsOk a.rd) (hpts' : PtsOk b.rd)
    (hloop : GoodLoop g m ((off + 8) / 2 : Nat) nch a.rd.loopStart a.rd.loopFinish (firstFrame a.rd)) (hloop' : GoodLoop g m' ((off' + 8) / 2 : Nat) nch a.rd.loopStart a.rd.loopFinish (firstFrame a.rd))
    (hraw : ∀ w : List Nat, w.length = 2 * (D / 2 / nch * nch) → GoodLoop g w 0 nch a.rd.loopStart a.rd.loopFinish (firstFrame a.rd))
    (hmm0 : 0 ≤ mm) (hmm : 2 * mm + 5 ≤ g.N) (hadv : 128 * (nch * 2) ≤ mm * g.B) (nullOk : Bool) {fuel : Nat} (hf : g.N ≤ fuel + 2) :
    ∃ a' b', (a.withInterp .linear).playWav g (some ⟨m, 0, past⟩) junk = .ok (true, a') ∧ (b.withInterp .linear).playWav g (some ⟨m', 0, past'⟩) junk' = .ok (true, b') ∧
      ∀ as : List Deed, (∀ v, Deed.speed v ∈ as → 0 ≤ v ∧ v ≤ 1) → ∃ fxs fxs' a'' b'', a'.acts fp g nullOk (fuel + 2) as = .ok (fxs, a'') ∧
        b'.acts fp g nullOk (fuel + 2) as = .ok (fxs', b'') ∧ List.Forall₂ (Mirrored Cancel) fxs fxs' := by
  have hfl := hrd.flip
  have hr := rawOf_same hw
  have hr' := rawOf_same hw'
  have hl := rawOf_length (nch := nch) hw.inFile
  have hl' := rawOf_length (nch := nch) hw'.inFile
  rw [hnum] at hl'
  have hwhole : (rawOf m off nch D).length / 2 % nch = 0 := by rw [hl, Nat.mul_div_cancel_left _ (by decide), Nat.mul_mod_left]
  have hwhole' : (rawOf m' off' nch D').length / 2 % nch = 0 := by rw [hl', Nat.mul_div_cancel_left _ (by decide), Nat.mul_mod_left]
  have hset' : RepeatSettings b.rd 1 := by rw [hfl]; exact { hset with plain := ⟨hset.plain.dual, hset.plain.interp⟩ }
  have hpos : ¬ a.rd.rate < 0 := not_lt.2 hset.rate0
  have hs : SamePlay a m (rawOf m off nch D) off nch D := ⟨hw, hr, hwhole, hhead, hin, fun h => absurd h hpos⟩
  have hs' : SamePlay b m' (rawOf m' off' nch D') off' nch D' :=
    ⟨hw', hr', hwhole', by rw [hfl]; exact hhead, by rw [hfl, hnum]; exact ⟨hin.start, hin.ls, hin.lf⟩, by rw [hfl]; exact fun h => absurd h hpos⟩
  have hg' : GoodLoop g (rawOf m' off' nch D') 0 nch b.rd.loopStart b.rd.loopFinish (firstFrame b.rd) := by rw [hfl]; exact hraw _ hl'
  have hnot : Interp.linear = .quadratic → False := fun e => by cases e
  obtain ⟨a', a1, k1, k2, k3⟩ := C91_smooth_loop_partial hfp hB hB hNB hNB a hs past false junk hj hf hf .linear (fun e => (hnot e).elim) hpts hc8 hset hloop (hraw _ hl) hmm0 hmm hadv hmm0 hmm hadv nullOk nullOk
  obtain ⟨b', b1, j1, j2, j3⟩ := C91_smooth_loop_partial hfp hB hB hNB hNB b hs' past' false junk' hj' hf hf .linear (fun e => (hnot e).elim) hpts' hc8 hset' (by rw [hfl]; exact hloop') hg' hmm0 hmm hadv hmm0 hmm hadv
    nullOk nullOk
  obtain ⟨a2, l1, -, -, -, -, -, -, -, -, l2⟩ := C82_loop_raw_partial hfp .linear g hB hNB a hr.bytes hr.small false hw.some hc8 hset (fun e => (hnot e).elim) hpts hhead (hraw _ hl) hmm0 hmm hadv nullOk hf
  obtain ⟨b2, n1, -, -, -, -, -, -, -, -, n2⟩ := C82_loop_raw_partial hfp .linear g hB hNB b hr'.bytes hr'.small false hw.some hc8 hset' (fun e => (hnot e).elim) hpts' (by rw [hfl]; exact hhead) hg' hmm0 hmm hadv
    nullOk hf
  have e1 : a2 = a1 := by rw [k2] at l1; exact ((Prod.mk.inj (Except.ok.inj l1)).2).symm
  have e2 : b2 = b1 := by rw [j2] at n1; exact ((Prod.mk.inj (Except.ok.inj n1)).2).symm
  subst e1 e2
  have hrd2 : Opposite (a.withInterp .linear).rd (b.withInterp .linear).rd := by
    have e : (b.withInterp .linear).rd = (a.withInterp .linear).rd.flip := by
      unfold FileReader.withInterp
      simp only
      rw [hfl]
      rfl
    rw [e]
    exact opposite_flip _
  have hs2 : InversePlay (a.withInterp .linear) (b.withInterp .linear) (rawOf m off nch D) (rawOf m' off' nch D') := ⟨hrd2, rawOf_inverse hw hw' hnum hd, by rw [hl, hl'], hr.small⟩
  refine ⟨a', b', k1, j1, fun as hslow => ?_⟩
  obtain ⟨fxs, a3, a4, p1, p2, -⟩ := k3 as (upTo_allowed hslow)
  obtain ⟨fxs', b3, b4, q1, q2, -⟩ := j3 as (upTo_allowed hslow)
  obtain ⟨gs, gs', a5, b5, r1, r2, r3⟩ := streams_flip (cub := false) he hs2 (by omega) (fun e => (hnot e).elim) (ok' := UpToNormal .linear (SpeedsTo 1)) (fun r v h => h) k2 j2 l2 n2 (upTo_allowed hslow)
  have e3 : gs = fxs := by rw [p2] at r1; exact ((Prod.mk.inj (Except.ok.inj r1)).1).symm
  have e4 : gs' = fxs' := by rw [q2] at r2; exact ((Prod.mk.inj (Except.ok.inj r2)).1).symm
  subst e3 e4
  exact ⟨gs, gs', a3, b3, p1, q1, r3.imp fun _ _ k => k.weaken fun _ _ => upside_cancel⟩

/-! ## Example -/

/-- A WAV file of 3000 equal samples. -/
def exWavTape (x y : Nat) : List Nat := wav exFields (some [73, 78, 70, 79]) 6000 (exTape x y 3000)

theorem exWavTape_bytes {x y : Nat} (hx : x < 256) (hy : y < 256) : IsBytes (exWavTape x y) := by
  have h : IsBytes (header exFields ++ listChunk (some [73, 78, 70, 79]) ++ dataHead 6000) := by unfold IsBytes; decide +kernel
  intro b hb
  unfold exWavTape wav at hb
  rcases List.mem_append.1 hb with hb | hb
  · exact h b hb
  · exact exTape_bytes hx hy 3000 b hb

theorem exWavTape_length (x y : Nat) : (exWavTape x y).length = 6056 := by
  have h : (header exFields ++ listChunk (some [73, 78, 70, 79]) ++ dataHead 6000).length = 56 := by decide +kernel
  unfold exWavTape wav
  rw [List.length_append, h, exTape_length]

theorem exWavTape_file : WavFile (exWavTape 5 5) 48 2 6000 :=
  ⟨exWavTape_bytes (by decide) (by decide), by rw [exWavTape_length]; decide, by decide +kernel, by decide +kernel, ⟨Or.inr ⟨by decide +kernel, by decide +kernel⟩, by decide +kernel, by decide +kernel⟩,
    by decide, by decide +kernel, by decide +kernel, by rw [exWavTape_length], by decide⟩

theorem exWavTape_file' : WavFile (exWavTape 251 250) 48 2 6000 :=
  ⟨exWavTape_bytes (by decide) (by decide), by rw [exWavTape_length]; decide, by decide +kernel, by decide +kernel, ⟨Or.inr ⟨by decide +kernel, by decide +kernel⟩, by decide +kernel, by decide +kernel⟩,
    by decide, by decide +kernel, by decide +kernel, by rw [exWavTape_length], by decide⟩

theorem exWavTape_sample (x y : Nat) {j : Nat} (hj : j < 3000) : dataSample (exWavTape x y) (48 + 8) j = dataSample [x, y] 0 0 := by
  have h : (header exFields ++ listChunk (some [73, 78, 70, 79]) ++ dataHead 6000).length = 56 := by decide +kernel
  have e : slice (exWavTape x y) (48 + 8 + 2 * j) 2 = slice (exTape x y 3000) (2 * j) 2 := by
    unfold exWavTape wav slice
    rw [List.drop_append, List.drop_of_length_le (by omega), List.nil_append, h, Nat.add_sub_cancel_left]
  unfold dataSample
  rw [e, exTape_slice x y j 3000 hj]
  rfl

/-- Frames 10 to 13 again and again. -/
example : ∃ a' b', exFew.playWav exFineGeo (some ⟨exWavTape 5 5, 0, false⟩) (List.replicate 36 7) = .ok (true, a') ∧
    exFew.playWav exFineGeo (some ⟨exWavTape 251 250, 0, true⟩) (List.replicate 36 9) = .ok (true, b') ∧
    ∀ as : List Deed, (∀ v, Deed.speed v ∈ as → 0 ≤ v ∧ v ≤ (1 : Int)) → ∃ fxs fxs' a'' b'', a'.acts Fp.ieee exFineGeo true (5 + 2) as = .ok (fxs, a'') ∧
      b'.acts Fp.ieee exFineGeo true (5 + 2) as = .ok (fxs', b'') ∧ List.Forall₂ (Mirrored Cancel) fxs fxs' :=
  C96_wav_loop_partial ieee_evenly ieee_representable (by decide) (by decide) exFew exFew (opposite_new rfl) exWavTape_file exWavTape_file' rfl
    (fun j hj => by rw [exWavTape_sample 5 5 (by omega), exWavTape_sample 251 250 (by omega)]; unfold Cancel; decide)
    false true _ _ (by decide) (by decide) (by decide) rfl exFew_setWithin (R := 1) (mm := 1) exFew_settings
    ⟨by decide, by decide, by rw [exWavTape_length]; decide, by decide, by decide, Or.inr ⟨by decide, by rw [exWavTape_length]; decide⟩⟩
    ⟨by decide, by decide, by rw [exWavTape_length]; decide, by decide, by decide, Or.inr ⟨by decide, by rw [exWavTape_length]; decide⟩⟩
    (fun w hl => ⟨by decide, by decide, by rw [hl]; decide, by decide, by decide, Or.inr ⟨by decide, by rw [hl]; decide⟩⟩)
    (by decide) (by decide) (by decide) true (by decide)

example : ∃ a' b', (exFew.withInterp .linear).playWav exFineGeo (some ⟨exWavTape 5 5, 0, false⟩) (List.replicate 36 7) = .ok (true, a') ∧
    (exFew.withInterp .linear).playWav exFineGeo (some ⟨exWavTape 251 250, 0, true⟩) (List.replicate 36 9) = .ok (true, b') ∧
    ∀ as : List Deed, (∀ v, Deed.speed v ∈ as → 0 ≤ v ∧ v ≤ 1) → ∃ fxs fxs' a'' b'', a'.acts Fp.ieee exFineGeo true (5 + 2) as = .ok (fxs, a'') ∧
      b'.acts Fp.ieee exFineGeo true (5 + 2) as = .ok (fxs', b'') ∧ List.Forall₂ (Mirrored Cancel) fxs fxs' :=
  C96_wav_smooth_loop_partial ieee_evenly ieee_representable (by decide) (by decide) exFew exFew (opposite_new rfl) exWavTape_file exWavTape_file' rfl
    (fun j hj => by rw [exWavTape_sample 5 5 (by omega), exWavTape_sample 251 250 (by omega)]; unfold Cancel; decide)
    false true _ _ (by decide) (by decide) (by decide) rfl exFew_setWithin (mm := 1) exFew_settings pts_new pts_new
    ⟨by decide, by decide, by rw [exWavTape_length]; decide, by decide, by decide, Or.inr ⟨by decide, by rw [exWavTape_length]; decide⟩⟩
    ⟨by decide, by decide, by rw [exWavTape_length]; decide, by decide, by decide, Or.inr ⟨by decide, by rw [exWavTape_length]; decide⟩⟩
    (fun w hl => ⟨by decide, by decide, by rw [hl]; decide, by decide, by decide, Or.inr ⟨by decide, by rw [hl]; decide⟩⟩)
    (by decide) (by decide) (by decide) true (by decide)

end TVP
