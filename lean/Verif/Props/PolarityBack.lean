import Verif.Props.PolarityLoop

/-!
# Property C96: loops of WAV files, backwards
-/

namespace TVP
open Spec

variable {fp : Fp}

theorem still_allowed {fuel : Nat} {ok : Rd → ℚ → Prop} : ∀ {as : List Deed} {b : ArrayReader}, (∀ v, Deed.speed v ∉ as) → Allowed fp fuel ok b as
  | [], _, _ => trivial
  | .tick _ :: as, _, h => fun _ _ _ => still_allowed (as := as) fun v hv => h v (List.mem_cons_of_mem _ hv)
  | .speed v :: _, _, h => absurd List.mem_cons_self (h v)

/-- **C96** (partial), loops of WAV files backwards without interpolation, from the end of the loop or a given frame on, at any speed up to `R` that is not changed.  The headers may differ; if the
data chunks are opposite, frame for frame, what the two players send adds up to nothing.  The loop is to be one that is streamed as from memory in either file and in a raw file of the same
frames (`GoodLoopBack`).

Missing: interpolation, changes of the speed, playback from the end of the file, and what `C72_loop_back_wav_partial` leaves out. -/
theorem C96_wav_loop_back_partial (he : RoundsEvenly fp) (hfp : Representable fp) {g : Geo} (hB : g.B < 16384) (hNB : g.N * g.B ≤ 2 ^ 30) (a b : FileReader) (hrd : Opposite a.rd b.rd)
    {m m' : List Nat} {off off' nch D D' : Nat} (hw : WavFile m off nch D) (hw' : WavFile m' off' nch D') (hnum : D' / 2 / nch = D / 2 / nch)
    (hd : ∀ j < D / 2 / nch * nch, Cancel (dataSample m (off + 8) j) (dataSample m' (off' + 8) j))
    (past past' : Bool) (junk junk' : List Nat) (hj : junk.length = 36) (hj' : junk'.length = 36) (hc' : nch ≤ 32767) (hhead : a.rd.header = 0) (hin : SetWithin a.rd (D / 2 / nch))
    (hstart : a.rd.playStart ≠ .sample) {R mm : Int} (hset : RepeatBackSettings fp a.rd R)
    {P P' Q : Int} (hP : StartsBackAt a.rd ((m.length : Int) / 2) ((off + 8) / 2 : Nat) a.rd.loopFinish nch P)
    (hP' : StartsBackAt a.rd ((m'.length : Int) / 2) ((off' + 8) / 2 : Nat) a.rd.loopFinish nch P') (hQ : ∀ S : Int, StartsBackAt a.rd S 0 a.rd.loopFinish nch Q)
    (hloop : GoodLoopBack g m ((off + 8) / 2 : Nat) nch a.rd.loopStart a.rd.loopFinish P) (hloop' : GoodLoopBack g m' ((off' + 8) / 2 : Nat) nch a.rd.loopStart a.rd.loopFinish P')
    (hraw : ∀ w : List Nat, w.length = 2 * (D / 2 / nch * nch) → GoodLoopBack g w 0 nch a.rd.loopStart a.rd.loopFinish Q)
    (hmm0 : 0 ≤ mm) (hmm : 2 * mm + 5 ≤ g.N) (hadv : 128 * (nch * (R + 1)) + nch * nch ≤ mm * g.B) (nullOk : Bool) {fuel : Nat} (hf : g.N ≤ fuel + 2) :
    ∃ a' b', a.playWav g (some ⟨m, 0, past⟩) junk = .ok (true, a') ∧ b.playWav g (some ⟨m', 0, past'⟩) junk' = .ok (true, b') ∧
      ∀ as : List Deed, (∀ v, Deed.speed v ∉ as) → ∃ fxs fxs' a'' b'', a'.acts fp g nullOk (fuel + 2) as = .ok (fxs, a'') ∧
        b'.acts fp g nullOk (fuel + 2) as = .ok (fxs', b'') ∧ List.Forall₂ (Mirrored Cancel) fxs fxs' := by
  have hfl := hrd.flip
  have hr := rawOf_same hw
  have hr' := rawOf_same hw'
  have hl := rawOf_length (nch := nch) hw.inFile
  have hl' := rawOf_length (nch := nch) hw'.inFile
  rw [hnum] at hl'
  have hwhole : (rawOf m off nch D).length / 2 % nch = 0 := by rw [hl, Nat.mul_div_cancel_left _ (by decide), Nat.mul_mod_left]
  have hwhole' : (rawOf m' off' nch D').length / 2 % nch = 0 := by rw [hl', Nat.mul_div_cancel_left _ (by decide), Nat.mul_mod_left]
  have hset' : RepeatBackSettings fp b.rd R := by rw [hfl]; exact { hset with plain := ⟨hset.plain.dual, hset.plain.interp⟩ }
  have hs : SamePlay a m (rawOf m off nch D) off nch D := ⟨hw, hr, hwhole, hhead, hin, fun _ h => absurd h hstart⟩
  have hs' : SamePlay b m' (rawOf m' off' nch D') off' nch D' :=
    ⟨hw', hr', hwhole', by rw [hfl]; exact hhead, by rw [hfl, hnum]; exact ⟨hin.start, hin.ls, hin.lf⟩, by rw [hfl]; exact fun _ h => absurd h hstart⟩
  have hg' : GoodLoopBack g (rawOf m' off' nch D') 0 nch b.rd.loopStart b.rd.loopFinish Q := by rw [hfl]; exact hraw _ hl'
  have hQ' : StartsBackAt b.rd (((rawOf m' off' nch D').length : Int) / 2) 0 b.rd.loopFinish nch Q := by rw [hfl]; exact hQ _
  obtain ⟨a', a1, k1, k2, k3⟩ := C91_speeds_loop_back_partial hfp hB hB hNB hNB a hs past false junk hj hf hf hc' hset hP (hQ _) hloop (hraw _ hl) hmm0 hmm hadv hmm0 hmm hadv nullOk nullOk
  obtain ⟨b', b1, j1, j2, j3⟩ := C91_speeds_loop_back_partial hfp hB hB hNB hNB b hs' past' false junk' hj' hf hf hc' hset' (P := P') (by rw [hfl]; exact hP') hQ' (by rw [hfl]; exact hloop') hg'
    hmm0 hmm hadv hmm0 hmm hadv nullOk nullOk
  obtain ⟨a2, l1, -, -, -, -, -, -, -, -, -, l2⟩ := C72_loop_back_raw_partial fp hfp g hB hNB a hr.bytes hr.small false hw.some hc' hset hhead (hQ _) (hraw _ hl) hmm0 hmm hadv nullOk hf
  obtain ⟨b2, n1, -, -, -, -, -, -, -, -, -, n2⟩ := C72_loop_back_raw_partial fp hfp g hB hNB b hr'.bytes hr'.small false hw.some hc' hset' (by rw [hfl]; exact hhead) hQ' hg' hmm0 hmm hadv nullOk hf
  have e1 : a2 = a1 := by rw [k2] at l1; exact ((Prod.mk.inj (Except.ok.inj l1)).2).symm
  have e2 : b2 = b1 := by rw [j2] at n1; exact ((Prod.mk.inj (Except.ok.inj n1)).2).symm
  subst e1 e2
  have hs2 : InversePlay a b (rawOf m off nch D) (rawOf m' off' nch D') := ⟨hrd, rawOf_inverse hw hw' hnum hd, by rw [hl, hl'], hr.small⟩
  refine ⟨a', b', k1, j1, fun as hslow => ?_⟩
  obtain ⟨fxs, a3, a4, p1, p2, -⟩ := k3 as (still_allowed hslow)
  obtain ⟨fxs', b3, b4, q1, q2, -⟩ := j3 as (still_allowed hslow)
  obtain ⟨gs, gs', a5, b5, r1, r2, r3⟩ := streams_flip (cub := false) he hs2 hc' (fun e => by rw [hset.plain.interp] at e; cases e) (ok' := SpeedsBack fp R) (fun r v h => h) k2 j2 l2 n2 (still_allowed hslow)
  have e3 : gs = fxs := by rw [p2] at r1; exact ((Prod.mk.inj (Except.ok.inj r1)).1).symm
  have e4 : gs' = fxs' := by rw [q2] at r2; exact ((Prod.mk.inj (Except.ok.inj r2)).1).symm
  subst e3 e4
  exact ⟨gs, gs', a3, b3, p1, q1, r3.imp fun _ _ k => k.weaken fun _ _ => upside_cancel⟩

/-! ## Example -/

/-- A WAV file of 6700 equal samples. -/
def exWavReel (x y : Nat) : List Nat := wav exFields (some [73, 78, 70, 79]) 13400 (exTape x y 6700)

theorem exWavReel_bytes {x y : Nat} (hx : x < 256) (hy : y < 256) : IsBytes (exWavReel x y) := by
  have h : IsBytes (header exFields ++ listChunk (some [73, 78, 70, 79]) ++ dataHead 13400) := by unfold IsBytes; decide +kernel
  intro b hb
  unfold exWavReel wav at hb
  rcases List.mem_append.1 hb with hb | hb
  · exact h b hb
  · exact exTape_bytes hx hy 6700 b hb

theorem exWavReel_head : (header exFields ++ listChunk (some [73, 78, 70, 79]) ++ dataHead 13400).length = 56 := by decide +kernel

theorem exWavReel_length (x y : Nat) : (exWavReel x y).length = 13456 := by
  unfold exWavReel wav
  rw [List.length_append, exWavReel_head, exTape_length]

theorem exWavReel_file : WavFile (exWavReel 5 5) 48 2 13400 :=
  ⟨exWavReel_bytes (by decide) (by decide), by rw [exWavReel_length]; decide, by decide +kernel, by decide +kernel, ⟨Or.inr ⟨by decide +kernel, by decide +kernel⟩, by decide +kernel, by decide +kernel⟩,
    by decide, by decide +kernel, by decide +kernel, by rw [exWavReel_length], by decide⟩

theorem exWavReel_file' : WavFile (exWavReel 251 250) 48 2 13400 :=
  ⟨exWavReel_bytes (by decide) (by decide), by rw [exWavReel_length]; decide, by decide +kernel, by decide +kernel, ⟨Or.inr ⟨by decide +kernel, by decide +kernel⟩, by decide +kernel, by decide +kernel⟩,
    by decide, by decide +kernel, by decide +kernel, by rw [exWavReel_length], by decide⟩

theorem exWavReel_sample (x y : Nat) {j : Nat} (hj : j < 6700) : dataSample (exWavReel x y) (48 + 8) j = dataSample [x, y] 0 0 := by
  have e : slice (exWavReel x y) (48 + 8 + 2 * j) 2 = slice (exTape x y 6700) (2 * j) 2 := by
    have h := exWavReel_head
    unfold exWavReel wav slice
    rw [List.drop_append, List.drop_of_length_le (by omega), List.nil_append, h, Nat.add_sub_cancel_left]
  unfold dataSample
  rw [e, exTape_slice x y j 6700 hj]
  rfl

/-- Frames 3100 to 3103 again and again, backwards at half speed. -/
example : ∃ a' b', exFewBack.playWav exFinerGeo (some ⟨exWavReel 5 5, 0, false⟩) (List.replicate 36 7) = .ok (true, a') ∧
    exFewBack.playWav exFinerGeo (some ⟨exWavReel 251 250, 0, true⟩) (List.replicate 36 9) = .ok (true, b') ∧
    ∀ as : List Deed, (∀ v, Deed.speed v ∉ as) → ∃ fxs fxs' a'' b'', a'.acts Fp.ieee exFinerGeo true (5 + 2) as = .ok (fxs, a'') ∧
      b'.acts Fp.ieee exFinerGeo true (5 + 2) as = .ok (fxs', b'') ∧ List.Forall₂ (Mirrored Cancel) fxs fxs' :=
  C96_wav_loop_back_partial ieee_evenly ieee_representable (by decide) (by decide) exFewBack exFewBack (opposite_new rfl) exWavReel_file exWavReel_file' rfl
    (fun j hj => by rw [exWavReel_sample 5 5 (by omega), exWavReel_sample 251 250 (by omega)]; unfold Cancel; decide)
    false true _ _ (by decide) (by decide) (by decide) rfl exFewBack_setWithin (by decide) (R := 1) (mm := 1) exFewBack_settings
    (exFewBack_start _) (exFewBack_start _) exFewBack_start_raw
    ⟨by decide, by decide, by rw [exWavReel_length]; decide, by decide, by rw [exWavReel_length]; decide, by decide, by rw [exWavReel_length]; decide, Or.inr ⟨by decide, by decide⟩⟩
    ⟨by decide, by decide, by rw [exWavReel_length]; decide, by decide, by rw [exWavReel_length]; decide, by decide, by rw [exWavReel_length]; decide, Or.inr ⟨by decide, by decide⟩⟩
    (fun w hl => ⟨by decide, by decide, by rw [hl]; decide, by decide, by rw [hl]; decide, by decide, by rw [hl]; decide, Or.inr ⟨by decide, by decide⟩⟩)
    (by decide) (by decide) (by decide) true (by decide)

end TVP
