import Verif.Lemmas.Shift
import Verif.Props.RawPath
import Verif.Props.Gentle
import Verif.Props.StreamInterp

/-!
# Property C91 with interpolation, rounded positions and changes of speed

A raw file and a WAV file with the same samples sound the same whenever both are read as from memory.
-/

namespace TVP
open Spec

variable {fp : Fp}

/-- From here on the two players do the same for any pattern of failing allocations and any changes of speed that `ok` allows: the same
blocks allocated, transmitted and released, the same events, and they play equally long. -/
def SoundAlikeAt (fp : Fp) (g g' : Geo) (nullOk nullOk' : Bool) (fuel fuel' : Nat) (a b : FileReader) (m : List Nat) (ok : Rd → ℚ → Prop) : Prop :=
  ∀ as : List Deed, Allowed fp fuel ok ⟨a.rd, some (samplesOf m)⟩ as → ∃ fxs a' b', a.acts fp g nullOk fuel as = .ok (fxs, a') ∧
    b.acts fp g' nullOk' fuel' as = .ok (fxs, b') ∧ a'.rd.playing = b'.rd.playing

theorem SoundAlikeAt.plain {g g' : Geo} {nullOk nullOk' : Bool} {fuel fuel' : Nat} {a b : FileReader} {m : List Nat} {ok : Rd → ℚ → Prop}
    (h : SoundAlikeAt fp g g' nullOk nullOk' fuel fuel' a b m ok) : SoundAlike fp g g' nullOk nullOk' fuel fuel' a b (fun _ => True) := by
  intro als _
  obtain ⟨fxs, a', b', h1, h2, h3⟩ := h (als.map .tick) (Allowed.ticks fp fuel ok als _)
  rw [FileReader.acts_ticks] at h1 h2
  exact ⟨fxs, a', b', h1, h2, h3⟩

/-- One update of a player that behaves like one in memory. -/
theorem LikeInMemoryAt.tick {g : Geo} {nullOk : Bool} {fuel : Nat} {a : FileReader} {m : List Nat} {ok : Rd → ℚ → Prop} (h : LikeInMemoryAt fp g nullOk fuel a m ok) (al : Nat → Bool) :
    ∃ fx a' b', a.tick fp g nullOk fuel al = .ok (fx, a') ∧ ArrayReader.tick fp fuel ⟨a.rd, some (samplesOf m)⟩ al = .ok (fx, b') ∧ b'.rd = a'.rd := by
  obtain ⟨fxs, a1, b1, e1, e2, e3, e4⟩ := h [.tick al] (fun _ _ _ => trivial)
  rw [FileReader.acts] at e1
  rw [ArrayReader.acts] at e2
  obtain ⟨⟨fx, p'⟩, t1, e1⟩ := bind_ok_iff.1 e1
  obtain ⟨⟨fx', b'⟩, t2, e2⟩ := bind_ok_iff.1 e2
  simp only [FileReader.acts, ArrayReader.acts, ok_bind, pure_eq_ok] at e1 e2
  obtain ⟨rfl, rfl⟩ := Prod.mk.inj (Except.ok.inj e1)
  obtain ⟨e6, rfl⟩ := Prod.mk.inj (Except.ok.inj e2)
  obtain ⟨rfl, -⟩ := List.cons.inj e6
  exact ⟨fx', p', b', t1, t2, e3.symm⟩

theorem alike_further {g g' : Geo} {nullOk nullOk' : Bool} {fuel fuel' : Nat} {m m' : List Nat} {ok ok' : Rd → ℚ → Prop} {H : Nat} {sz : Int}
    (hxy : ∀ (j : Nat) v, (samplesOf m')[j]? = some v → (samplesOf m)[H + j]? = some v)
    {k : Interp} (hok : ∀ r v, r.header = 0 ∧ r.interp = k → ok (further H sz r) v → ok' r v ∧ (k = .linear → |v| ≤ 1)) : ∀ (as : List Deed) {a b : FileReader}, LikeInMemoryAt fp g nullOk fuel a m ok →
      LikeInMemoryAt fp g' nullOk' fuel' b m' ok' → Further H sz k a.rd b.rd → Allowed fp fuel ok ⟨a.rd, some (samplesOf m)⟩ as →
      ∃ fxs a' b', a.acts fp g nullOk fuel as = .ok (fxs, a') ∧ b.acts fp g' nullOk' fuel' as = .ok (fxs, b') ∧ a'.rd.playing = b'.rd.playing
  | [], a, b, _, _, h, _ => ⟨[], a, b, rfl, rfl, by rw [h.1]; rfl⟩
  | .tick al :: as, a, b, ha, hb, h, hall => by
    obtain ⟨fx, a1, c1, t1, t2, t3⟩ := ha.tick al
    obtain ⟨fx', b1, d1, t1', t2', t3'⟩ := hb.tick al
    obtain ⟨k1, k2⟩ := (FurtherOn.tick (sz := sz) hxy (b := ⟨a.rd, some (samplesOf m)⟩) (b' := ⟨b.rd, some (samplesOf m')⟩) ⟨h, rfl, rfl⟩ al) _ _ t2 t2'
    simp only at k1 k2
    subst k1
    have ha1 := ha.after_tick t1 t2 t3 k2.src
    have hb1 := hb.after_tick t1' t2' t3' k2.src'
    have h1 : Further H sz k a1.rd b1.rd := by rw [← t3, ← t3']; exact k2.rd
    have hall1 := hall _ _ t2
    obtain ⟨rc, sc⟩ := c1
    have k3 := k2.src
    simp only at t3 k3
    subst t3 k3
    obtain ⟨fxs, a2, b2, e1, e2, e3⟩ := alike_further hxy hok as ha1 hb1 h1 hall1
    refine ⟨fx :: fxs, a2, b2, ?_, ?_, e3⟩
    · rw [FileReader.acts, t1]; simp only [ok_bind, e1]; rfl
    · rw [FileReader.acts, t1']; simp only [ok_bind, e2]; rfl
  | .speed v :: as, a, b, ha, hb, h, hall => by
    obtain ⟨hv, hall1⟩ := hall
    have hv' : ok a.rd v := hv
    rw [h.1] at hv
    obtain ⟨w1, w2⟩ := hok _ _ ⟨h.2.header, h.2.calm.1⟩ hv
    exact alike_further hxy hok as (ha.after_speed hv') (hb.after_speed w1) (h.speed w2) hall1

/-! ## Opening -/

/-- What a reader looks like once the file is open. -/
def openedRd (r : Rd) : Rd :=
  { ({ r with fileSamples := r.fileSamples.tdiv r.nch, loopStart := i32 (if r.loopType = .none then 0 else r.loopStart),
              loopFinish := i32 (if r.loopType = .none then r.fileSamples.tdiv r.nch else r.loopFinish) } : Rd).reset with playing := true }

theorem playFinish_rd {g : Geo} {r : Rd} {f : Dev} {a : FileReader} (h : playFinish g r f = .ok (true, a)) : a.rd = openedRd r := by
  obtain ⟨playing, fileSize, header, rate, rem, loopType, playStart, pos1, pos2, crossfade, dual, cfDur, cfOn, playbackStart, loopStart, loopFinish, fileSamples, nch, psram, interp, pts⟩ := r
  unfold playFinish at h
  simp only at h
  split at h
  · cases h
  · split at h
    · cases h
    · injection h with h
      injection h with _ h
      subst h
      cases loopType <;> rfl

/-- The reader as it is before the file is opened. -/
def beforeRd (r : Rd) (sz H F nch : Int) : Rd := { r with playing := false, fileSize := sz, header := H, fileSamples := F, nch := nch }

theorem setNumChannels_set (r : Rd) {n : Nat} (h : n ≤ 32767) : r.setNumChannels n = { r with nch := (n : Int) } := by
  obtain ⟨x, hx⟩ := setNumChannels_same r n
  have hn := setNumChannels_nch_small r (n := n) (by omega) (by omega)
  rw [hx] at hn ⊢
  simp only at hn
  rw [hn]

theorem playWav_rd {g : Geo} {a a' : FileReader} {m : List Nat} {off nch D : Nat} (hw : WavFile m off nch D) {past : Bool} {junk : List Nat} (hj : junk.length = 36) (hc' : nch ≤ 32767)
    (h : a.playWav g (some ⟨m, 0, past⟩) junk = .ok (true, a')) : a'.rd = openedRd (beforeRd a.rd m.length ((off + 8) / 2 : Nat) (D / 2 : Nat) nch) := by
  have hsz : i32 (m.length : Int) = m.length := by
    have hsm := hw.small
    clear h hw
    generalize m.length = L at *
    unfold i32; omega
  obtain ⟨f', hp, -, -⟩ := playParseWav_good
    (r := { a.close.rd with fileSize := i32 (m.length : Int) }) (past := past) hj hw.bytes hw.small hw.good hw.depth hw.data
  have hch : u16 (parsed m).numChannels = (nch : Int) := by
    have e : u16 (parsed m).numChannels = u16 (leVal (slice m 22 2)) := by simp only [parsed]; rw [u16_i16]
    rw [e, hw.chans]
    clear hp h hw e hsz
    unfold u16; omega
  rw [hch, hw.len, setNumChannels_set _ hc', hsz] at hp
  unfold FileReader.playWav FileReader.playFile at h
  simp only [if_true] at h
  obtain ⟨⟨ok, r, f1⟩, hp1, h⟩ := bind_ok_iff.1 h
  have e0 : i32 (Dev.size ⟨m, 0, past⟩) = (m.length : Int) := hsz
  rw [e0, hp] at hp1
  simp only [Except.ok.injEq, Prod.mk.injEq] at hp1
  obtain ⟨rfl, h2, -⟩ := hp1
  simp only [Bool.not_true, Bool.false_eq_true, if_false] at h
  rw [playFinish_rd h, ← h2]
  rfl

theorem playRaw_rd {g : Geo} {a a' : FileReader} {m : List Nat} (hm : m.length < 2 ^ 31) {past : Bool} {nch : Nat} (hc' : nch ≤ 32767)
    (h : a.playRaw g (some ⟨m, 0, past⟩) nch = .ok (true, a')) : a'.rd = openedRd (beforeRd a.rd m.length a.rd.header (m.length / 2 : Nat) nch) := by
  have hsz : i32 (m.length : Int) = m.length := by unfold i32; omega
  unfold FileReader.playRaw FileReader.playFile at h
  simp only [Bool.false_eq_true, if_false, Dev.size] at h
  rw [hsz, setNumChannels_set _ hc'] at h
  rw [playFinish_rd h]
  have e : ((m.length : Int)).tdiv 2 = (m.length / 2 : Nat) := by rw [Int.tdiv_eq_ediv_of_nonneg (by omega)]; rfl
  unfold beforeRd
  rw [← e]
  rfl

/-- The player is set to start and to loop within a sound of `F` frames. -/
structure SetWithin (r : Rd) (F : Nat) : Prop where
  start : r.playStart = .arbitrary → 0 ≤ r.playbackStart ∧ r.playbackStart ≤ F
  ls : r.loopType ≠ .none → 0 ≤ r.loopStart ∧ r.loopStart ≤ F
  lf : r.loopType ≠ .none → 0 ≤ r.loopFinish ∧ r.loopFinish ≤ F

/-- The same with what the numbers come to. -/
def openedAt (r : Rd) (ls lf F : Int) : Rd := { ({ r with fileSamples := F, loopStart := ls, loopFinish := lf } : Rd).reset with playing := true }

theorem openedRd_at {r : Rd} {ls lf F : Int} (h1 : r.fileSamples.tdiv r.nch = F) (h2 : i32 (if r.loopType = .none then 0 else r.loopStart) = ls)
    (h3 : i32 (if r.loopType = .none then F else r.loopFinish) = lf) : openedRd r = openedAt r ls lf F := by
  subst h1 h2 h3
  rfl

theorem i32_u32_small {x : Int} (h1 : -(2 ^ 31) ≤ x) (h2 : x < 2 ^ 31) : i32 (u32 x) = x := by
  unfold i32 u32
  omega

theorem i32_small' {x : Int} (h1 : -(2 ^ 31) ≤ x) (h2 : x < 2 ^ 31) : i32 x = x := by
  unfold i32
  omega

theorem marks_further {H nch S K : Nat} (hc' : nch ≤ 32767) (hroom : H + K * nch ≤ S / 2) (hS : S < 2 ^ 31) (x : Int) (h1 : -(nch : Int) ≤ x) (h2 : x ≤ K) :
    i32 (u32 (H + x * nch)) = i32 (u32 (0 + x * nch)) + H := by
  have h3 : x * nch ≤ K * nch := Int.mul_le_mul_of_nonneg_right h2 (Int.natCast_nonneg _)
  have h4 : -((nch : Int)) * nch ≤ x * nch := Int.mul_le_mul_of_nonneg_right h1 (Int.natCast_nonneg _)
  have h5 : (nch : Int) * nch ≤ 32767 * 32767 := by exact_mod_cast Nat.mul_le_mul hc' hc'
  have h6 : -((nch : Int)) * nch = -((nch : Int) * nch) := Int.neg_mul _ _
  have h7 : (H : Int) + (K : Int) * nch ≤ (S / 2 : Nat) := by exact_mod_cast hroom
  have h8 : ((S / 2 : Nat) : Int) < 2 ^ 30 := by clear h3 h4 h5 h6 h7 hroom h1 h2 hc'; omega
  have h9 : (0 : Int) ≤ H := Int.natCast_nonneg _
  rw [i32_u32_small (by linarith) (by linarith), i32_u32_small (by linarith) (by linarith)]
  ring

theorem opened_further {r : Rd} {H nch S S' K : Nat} (hS' : S' < 2 ^ 31) (hc : 1 ≤ nch) (hc' : nch ≤ 32767) (hF : S' / 2 = K * nch)
    (hroom : H + K * nch ≤ S / 2) (hS : S < 2 ^ 31) {Q : Nat} (hQ : Q / nch = K)
    (hhead : r.header = 0) (hdual : r.dual = false) (hin : SetWithin r K) (hend : r.rate < 0 → r.playStart = .sample → S / 2 = H + S' / 2)
    (hlin : r.interp = .linear → |r.rate| ≤ 1) :
    Further H S r.interp (openedRd (beforeRd r S H Q nch)) (openedRd (beforeRd r S' r.header (S' / 2 : Nat) nch)) := by
  have hKn : ((K * nch : Nat) : Int) = (K : Int) * nch := by push_cast; rfl
  have hK31 : K ≤ K * nch := Nat.le_mul_of_pos_right _ hc
  have t1 : ((Q : Int)).tdiv (nch : Int) = K := by
    rw [Int.tdiv_eq_ediv_of_nonneg (by omega), ← hQ]; rfl
  have t2 : (((S' / 2 : Nat) : Int)).tdiv (nch : Int) = K := by
    rw [Int.tdiv_eq_ediv_of_nonneg (by omega), hF, hKn]
    exact Int.mul_ediv_cancel _ (by omega)
  have hmarks := marks_further hc' hroom hS
  have hK : (K : Int) < 2 ^ 30 := by
    have h1 : K ≤ S' / 2 := hF ▸ hK31
    clear hmarks t1 t2 hKn hF hroom hQ
    omega
  have hK0 : (0 : Int) ≤ K := Int.natCast_nonneg _
  have hn0 : (1 : Int) ≤ nch := by exact_mod_cast hc
  have hn1 : (nch : Int) ≤ 32767 := by exact_mod_cast hc'
  have e1 : ∀ x : Int, 0 ≤ x → x ≤ K → i32 x = x := fun x h1 h2 => i32_small' (by linarith) (by linarith)
  obtain ⟨i1, i2, i3⟩ := hin
  obtain ⟨ls, q1, b1⟩ : ∃ ls : Int, i32 (if r.loopType = .none then 0 else r.loopStart) = ls ∧ 0 ≤ ls ∧ ls ≤ K := by
    refine ⟨_, rfl, ?_⟩
    split
    · exact ⟨by decide, by rw [e1 0 le_rfl hK0]; exact hK0⟩
    · rename_i hl; rw [e1 _ (i2 hl).1 (i2 hl).2]; exact i2 hl
  obtain ⟨lf, q2, b2⟩ : ∃ lf : Int, i32 (if r.loopType = .none then (K : Int) else r.loopFinish) = lf ∧ 0 ≤ lf ∧ lf ≤ K := by
    refine ⟨_, rfl, ?_⟩
    split
    · rw [e1 _ hK0 le_rfl]; exact ⟨hK0, le_rfl⟩
    · rename_i hl; rw [e1 _ (i3 hl).1 (i3 hl).2]; exact i3 hl
  rw [openedRd_at (r := beforeRd r S H Q nch) t1 q1 q2, openedRd_at (r := beforeRd r S' r.header (S' / 2 : Nat) nch) t2 q1 q2]
  clear q1 q2 i2 i3
  obtain ⟨playing, fileSize, header, rate, rem, loopType, playStart, pos1, pos2, crossfade, dual, cfDur, cfOn, playbackStart, loopStart, loopFinish, fileSamples, nch0, psram, interp, pts⟩ := r
  simp only at hhead hdual hend hlin i1
  subst hhead hdual
  simp only [openedAt, beforeRd]
  have m1 := hmarks 0 (by linarith) hK0
  have m2 := hmarks ls (by linarith [b1.1]) b1.2
  have m3 := hmarks (lf - nch) (by linarith [b2.1]) (by linarith [b2.2])
  have m4 : playStart = .arbitrary → i32 (u32 (H + playbackStart * nch)) = i32 (u32 (0 + playbackStart * nch)) + H := fun h =>
    hmarks playbackStart (by linarith [(i1 h).1]) (i1 h).2
  have m5 : rate < 0 → playStart = .sample → i32 ((S : Int).tdiv 2 - nch) = i32 ((S' : Int).tdiv 2 - nch) + H := fun h1 h2 => by
    have h3 := hend h1 h2
    have s1 : ((S : Int)).tdiv 2 = (S / 2 : Nat) := by rw [Int.tdiv_eq_ediv_of_nonneg (Int.natCast_nonneg _)]; rfl
    have s2 : ((S' : Int)).tdiv 2 = (S' / 2 : Nat) := by rw [Int.tdiv_eq_ediv_of_nonneg (Int.natCast_nonneg _)]; rfl
    have k1 : ((S / 2 : Nat) : Int) < 2 ^ 30 := by clear m4 m3 m2 m1 hmarks t1 t2 hF hroom hQ h3 hKn; omega
    have k2 : ((S' / 2 : Nat) : Int) < 2 ^ 30 := by clear m4 m3 m2 m1 hmarks t1 t2 hF hroom hQ h3 hKn; omega
    have k3 : ((S / 2 : Nat) : Int) = (H : Int) + (S' / 2 : Nat) := by exact_mod_cast h3
    have k4 : (0 : Int) ≤ (S' / 2 : Nat) := Int.natCast_nonneg _
    have k5 : (0 : Int) ≤ H := Int.natCast_nonneg _
    rw [s1, s2, i32_small' (by linarith) (by linarith), i32_small' (by linarith) (by linarith)]
    linarith
  refine ⟨?_, ⟨rfl, rfl, hn0, hK0, b1.1, b1.2, b2.1, b2.2, ?_, ⟨rfl, hlin⟩⟩⟩
  · unfold Rd.reset further
    simp only [Rd.posOf, Rd.s2s]
    refine congrArg (fun x : Int => (⟨true, S, H, rate, rem, loopType, playStart, x, pos2, 0, false, cfDur, false, playbackStart, ls, lf, K, nch, psram, interp,
      fun c => if c < 8 then { pts c with n := 0 } else pts c⟩ : Rd)) ?_
    by_cases hr : rate ≥ 0
    · simp only [if_pos hr]
      cases playStart with
      | sample => exact m1
      | loop => exact m2
      | arbitrary => exact m4 rfl
    · simp only [if_neg hr]
      cases playStart with
      | sample => exact m5 (not_le.1 hr) rfl
      | loop => exact m3
      | arbitrary => exact m4 rfl
  · exact hmarks

theorem SameFrames.memory {m m' : List Nat} {off nch D : Nat} (hw : WavFile m off nch D) (h : SameFrames m off nch D m') (hwhole : m'.length / 2 % nch = 0) (j : Nat) (v : Int)
    (hj : (samplesOf m')[j]? = some v) : (samplesOf m)[(off + 8) / 2 + j]? = some v := by
  have hc := hw.some
  have heven := hw.even
  have hin := hw.inFile
  have hlt : j < m'.length / 2 := by
    obtain ⟨h1, -⟩ := List.getElem?_eq_some_iff.1 hj
    unfold samplesOf at h1
    rwa [List.length_map, List.length_range] at h1
  have hv : fileSample m' j = v := by
    unfold samplesOf at hj
    rw [List.getElem?_map, List.getElem?_range hlt] at hj
    exact Option.some.inj hj
  have hfr : m'.length / 2 = D / 2 / nch * nch := by rw [← h.number]; exact (Nat.div_mul_cancel (Nat.dvd_of_mod_eq_zero hwhole)).symm
  have hle := Nat.div_mul_le_self (D / 2) nch
  have hi : j / nch < D / 2 / nch := by rw [Nat.div_lt_iff_lt_mul (by omega), ← hfr]; exact hlt
  have hd : j / nch * nch + j % nch = j := Nat.div_add_mod' j nch
  have hsame := h.same (j / nch) (j % nch) hi (Nat.mod_lt _ (by omega))
  rw [hd] at hsame
  unfold samplesOf
  rw [List.getElem?_map, List.getElem?_range (by omega)]
  refine congrArg some ?_
  rw [fileSample_data m (show (off + 8) % 2 = 0 by omega) j, hsame, ← hv, ← fileSample_data m' (start := 0) (by decide) j, Nat.zero_div, Nat.zero_add]

/-- **C91** (whenever both are read as from memory).  A player opens the WAV file `m`, another one with the same settings the raw file
`m'`, which has just the frames of `m`.  One head; the player is set to start and to loop within the sound; played backwards from the
end nothing stands behind the sound of the WAV file; with linear interpolation at most normal speed.  If both then play like players
with their files in memory, they do the same, update for update, whatever changes of speed `ok` allows, with any interpolation.

Missing: the second head, and linear interpolation above normal speed, where it is wrong (`C91_linear_refuted`). -/
theorem C91_streams_partial {g g' : Geo} {nullOk nullOk' : Bool} {fuel fuel' : Nat} {a a' b' : FileReader} {m m' : List Nat} {off nch D : Nat} (hw : WavFile m off nch D)
    (hw' : SameFrames m off nch D m') (hwhole : m'.length / 2 % nch = 0) {past past' : Bool} {junk : List Nat} (hj : junk.length = 36) (hc' : nch ≤ 32767) (hhead : a.rd.header = 0)
    (hdual : a.rd.dual = false) (hin : SetWithin a.rd (D / 2 / nch)) (hend : a.rd.rate < 0 → a.rd.playStart = .sample → m.length / 2 = (off + 8) / 2 + m'.length / 2)
    (hlin : a.rd.interp = .linear → |a.rd.rate| ≤ 1) {ok ok' : Rd → ℚ → Prop}
    (hok : ∀ r v, r.header = 0 ∧ r.interp = a.rd.interp → ok (further ((off + 8) / 2) m.length r) v → ok' r v ∧ (a.rd.interp = .linear → |v| ≤ 1))
    (hwav : a.playWav g (some ⟨m, 0, past⟩) junk = .ok (true, a')) (hraw : a.playRaw g' (some ⟨m', 0, past'⟩) nch = .ok (true, b'))
    (h : LikeInMemoryAt fp g nullOk fuel a' m ok) (h' : LikeInMemoryAt fp g' nullOk' fuel' b' m' ok') :
    SoundAlikeAt fp g g' nullOk nullOk' fuel fuel' a' b' m ok := by
  have hfr : m'.length / 2 = D / 2 / nch * nch := by rw [← hw'.number]; exact (Nat.div_mul_cancel (Nat.dvd_of_mod_eq_zero hwhole)).symm
  have hle := Nat.div_mul_le_self (D / 2) nch
  have hrd : Further ((off + 8) / 2) m.length a.rd.interp a'.rd b'.rd := by
    rw [playWav_rd hw hj hc' hwav, playRaw_rd hw'.small hc' hraw]
    exact opened_further hw'.small hw.some hc' hfr (by have := hw.inFile; have := hw.even; omega) hw.small rfl hhead hdual hin hend hlin
  intro as hall
  exact alike_further (hw'.memory hw hwhole) hok as h h' hrd hall

theorem Allowed.mono {fuel : Nat} {ok ok' : Rd → ℚ → Prop} (h : ∀ r v, ok r v → ok' r v) : ∀ (as : List Deed) {b : ArrayReader}, Allowed fp fuel ok b as → Allowed fp fuel ok' b as
  | [], _, _ => trivial
  | .tick _ :: as, _, ha => fun fx b' e => Allowed.mono h as (ha fx b' e)
  | .speed _ :: as, _, ha => ⟨h _ _ ha.1, Allowed.mono h as ha.2⟩

theorem LikeInMemoryAt.mono {g : Geo} {nullOk : Bool} {fuel : Nat} {a : FileReader} {m : List Nat} {ok ok' : Rd → ℚ → Prop} (h : ∀ r v, ok r v → ok' r v)
    (ha : LikeInMemoryAt fp g nullOk fuel a m ok') : LikeInMemoryAt fp g nullOk fuel a m ok := fun as hall => ha as (Allowed.mono h as hall)

/-- Speeds as in `SmoothSpeeds`, with linear interpolation up to normal speed. -/
def SmoothUpTo (R : Int) (r : Rd) (v : ℚ) : Prop := SmoothSpeeds R r v ∧ (r.interp = .linear → v ≤ 1)

/-- **C91** (forwards, with interpolation and changes of speed).  Forwards a raw file and a WAV file with the same samples sound the same
at any speed up to `R` and with any interpolation, also while the speed is changed; with linear interpolation up to normal speed.

Missing: as in `C91_streams_partial`, and what `C72_smooth_wav_partial` leaves out. -/
theorem C91_smooth_forward_partial (hfp : Representable fp) {g g' : Geo} (hB : g.B < 16384) (hB' : g'.B < 16384) (hNB : g.N * g.B ≤ 2 ^ 30) (hNB' : g'.N * g'.B ≤ 2 ^ 30)
    (a : FileReader) {m m' : List Nat} {off nch D : Nat} (hw : WavFile m off nch D) (hw' : SameFrames m off nch D m') (hwhole : m'.length / 2 % nch = 0) (h0 : 0 < m'.length)
    (past past' : Bool) (junk : List Nat) (hj : junk.length = 36) (hc' : nch ≤ 32767) (hhead : a.rd.header = 0) (hroom : off + 8 < m.length)
    {R mm mm' : Int} (hset : SmoothSettings a.rd R) (hlin : a.rd.interp = .linear → a.rd.rate ≤ 1) (h8 : a.rd.interp ≠ .none → nch ≤ 8)
    (hstart : a.rd.playStart = .arbitrary → 0 ≤ a.rd.playbackStart ∧ a.rd.playbackStart ≤ (D / 2 / nch : Nat))
    (hmm0 : 0 ≤ mm) (hmm : 2 * mm + 1 ≤ g.N) (hadv : 128 * (nch * (R + 1)) + nch ≤ mm * g.B)
    (hmm0' : 0 ≤ mm') (hmm' : 2 * mm' + 1 ≤ g'.N) (hadv' : 128 * (nch * (R + 1)) + nch ≤ mm' * g'.B)
    (nullOk nullOk' : Bool) {fuel fuel' : Nat} (hf : g.N ≤ fuel + 1) (hf' : g'.N ≤ fuel' + 1) :
    ∃ a' b', a.playWav g (some ⟨m, 0, past⟩) junk = .ok (true, a') ∧ a.playRaw g' (some ⟨m', 0, past'⟩) nch = .ok (true, b') ∧
      SoundAlikeAt fp g g' nullOk nullOk' (fuel + 1) (fuel' + 1) a' b' m (SmoothUpTo R) := by
  obtain ⟨a', k1, -, -, -, -, -, -, -, -, k2⟩ := C72_smooth_wav_partial fp hfp g hB hNB a hw.bytes hw.small past junk hj hw.good hw.depth hw.data hw.chans hw.some hc' hw.len hw.inFile hroom
    hset h8 hstart hmm0 hmm hadv nullOk hf
  obtain ⟨b', l1, -, -, -, -, -, -, -, l2⟩ := C72_smooth_raw_partial fp hfp g' hB' hNB' a hw'.bytes h0 hw'.small past' hw.some hc' hset h8 hhead (by rw [hw'.number]; exact hstart) hmm0' hmm' hadv'
    nullOk' hf'
  refine ⟨a', b', k1, l1, C91_streams_partial hw hw' hwhole hj hc' hhead hset.dual ⟨hstart, fun h => absurd hset.loop h, fun h => absurd hset.loop h⟩
    (fun h => absurd hset.rate0 (not_le.2 h)) (fun h => abs_le.2 ⟨by have := hset.rate0; linarith, hlin h⟩) (ok' := SmoothSpeeds R) (fun r v hi h => ?_) k1 l1 (k2.mono fun _ _ h => h.1) l2⟩
  exact ⟨h.1, fun hk => abs_le.2 ⟨by have := h.1.1; linarith, h.2 (hi.2.trans hk)⟩⟩

/-- What is asked of the player and the two files for all the other ways to play. -/
structure SamePlay (a : FileReader) (m m' : List Nat) (off nch D : Nat) : Prop where
  wav : WavFile m off nch D
  raw : SameFrames m off nch D m'
  whole : m'.length / 2 % nch = 0
  head : a.rd.header = 0
  within : SetWithin a.rd (D / 2 / nch)
  over : a.rd.rate < 0 → a.rd.playStart = .sample → m.length / 2 = (off + 8) / 2 + m'.length / 2

theorem SamePlay.streams {g g' : Geo} {nullOk nullOk' : Bool} {fuel fuel' : Nat} {a a' b' : FileReader} {m m' : List Nat} {off nch D : Nat} (hs : SamePlay a m m' off nch D)
    {past past' : Bool} {junk : List Nat} (hj : junk.length = 36) (hc' : nch ≤ 32767) (hset : PlainSettings a.rd) {ok ok' : Rd → ℚ → Prop} (k : Interp)
    (hlin : k = .linear → |a.rd.rate| ≤ 1) (hok : ∀ r v, r.header = 0 ∧ r.interp = k → ok (further ((off + 8) / 2) m.length r) v → ok' r v ∧ (k = .linear → |v| ≤ 1))
    (hwav : (a.withInterp k).playWav g (some ⟨m, 0, past⟩) junk = .ok (true, a')) (hraw : (a.withInterp k).playRaw g' (some ⟨m', 0, past'⟩) nch = .ok (true, b'))
    (h : LikeInMemoryAt fp g nullOk fuel a' m ok) (h' : LikeInMemoryAt fp g' nullOk' fuel' b' m' ok') :
    SoundAlikeAt fp g g' nullOk nullOk' fuel fuel' a' b' m ok :=
  C91_streams_partial (a := a.withInterp k) hs.wav hs.raw hs.whole hj hc' hs.head hset.dual ⟨hs.within.start, hs.within.ls, hs.within.lf⟩ hs.over hlin hok hwav hraw h h'

theorem withInterp_none {a : FileReader} (h : a.rd.interp = .none) : a.withInterp .none = a := by
  obtain ⟨⟨playing, fileSize, header, rate, rem, loopType, playStart, pos1, pos2, crossfade, dual, cfDur, cfOn, playbackStart, loopStart, loopFinish, fileSamples, nch, psram, interp, pts⟩, s⟩ := a
  simp only at h
  subst h
  rfl

theorem inside_further {H : Nat} {sz : Int} {r : Rd} {v : ℚ} (hz : r.header = 0) (h : Inside (further H sz r) v) : Inside r v := by
  unfold Inside at h ⊢
  simp only [further] at h
  rw [hz]
  rcases h with h | ⟨h1, h2⟩
  · exact Or.inl (by linarith)
  · exact Or.inr ⟨h1, by linarith⟩

theorem neg_of_rnd {v : ℚ} (h : fp.f.rnd v < 0) : v < 0 := by
  by_contra hc
  exact absurd (fp.f.nonneg (not_lt.1 hc)) (not_le.2 h)

/-- **C91** (backwards, without interpolation at any speed up to `R`, whether positions are rounded or not), while the speed is changed as well. -/
theorem C91_speeds_back_partial (hfp : Representable fp) {g g' : Geo} (hB : g.B < 16384) (hB' : g'.B < 16384) (hNB : g.N * g.B ≤ 2 ^ 30) (hNB' : g'.N * g'.B ≤ 2 ^ 30)
    (a : FileReader) {m m' : List Nat} {off nch D : Nat} (hs : SamePlay a m m' off nch D) (past past' : Bool) (junk : List Nat) (hj : junk.length = 36) {fuel fuel' : Nat} (hfu : g.N ≤ fuel + 1) (hfu' : g'.N ≤ fuel' + 1)
    (hc' : nch ≤ 32767) {R : Int} {mm mm' : Int} (hset : BackwardSettings fp a.rd R)
    {P P' : Int} (hP : StartsBackAt a.rd ((m.length : Int) / 2) ((off + 8) / 2 : Nat) (D / 2 / nch : Nat) nch P) (hP' : StartsBackAt a.rd ((m'.length : Int) / 2) 0 (m'.length / 2 / nch : Nat) nch P')
    (hgood : GoodStart g m ((off + 8) / 2 : Nat) nch P) (hgood' : GoodStart g' m' 0 nch P')
    (hmm0 : 0 ≤ mm) (hmm : 2 * mm + 1 ≤ g.N) (hadv : 128 * (nch * (R + 1)) ≤ mm * g.B)
    (hmm0' : 0 ≤ mm') (hmm' : 2 * mm' + 1 ≤ g'.N) (hadv' : 128 * (nch * (R + 1)) ≤ mm' * g'.B)
    (nullOk nullOk' : Bool) :
    ∃ a' b', a.playWav g (some ⟨m, 0, past⟩) junk = .ok (true, a') ∧ a.playRaw g' (some ⟨m', 0, past'⟩) nch = .ok (true, b') ∧
      SoundAlikeAt fp g g' nullOk nullOk' (fuel + 1) (fuel' + 1) a' b' m (SpeedsBack fp R) := by
  obtain ⟨a', k1, -, -, -, -, -, -, -, k2⟩ := C72_back_wav_partial fp hfp g hB hNB a hs.wav.bytes hs.wav.small past junk hj hs.wav.good hs.wav.depth hs.wav.data hs.wav.chans hs.wav.some hc' hs.wav.len hs.wav.inFile
    hset hP hgood hmm0 hmm hadv nullOk hfu
  obtain ⟨b', l1, -, -, -, -, -, -, l2⟩ := C72_back_raw_partial fp hfp g' hB' hNB' a hs.raw.bytes hs.raw.small past' hs.wav.some hc' hset hs.head hP' hgood' hmm0' hmm' hadv' nullOk' hfu'
  have hi := withInterp_none hset.plain.interp
  refine ⟨a', b', k1, l1, hs.streams hj hc' hset.plain .none (fun hk => by cases hk) (fun r v hz h => ?_) (by rw [hi]; exact k1) (by rw [hi]; exact l1) k2 l2⟩
  exact ⟨⟨h.1, h.2.1, fun hp => by have h9 := h.2.2 hp; simp only [further] at h9; rw [hz.1]; omega⟩, fun hk => by cases hk⟩

/-- **C91** (backwards, with any interpolation at up to normal speed), while the speed is changed as well. -/
theorem C91_smooth_back_partial (hfp : Representable fp) {g g' : Geo} (hB : g.B < 16384) (hB' : g'.B < 16384) (hNB : g.N * g.B ≤ 2 ^ 30) (hNB' : g'.N * g'.B ≤ 2 ^ 30)
    (a : FileReader) {m m' : List Nat} {off nch D : Nat} (hs : SamePlay a m m' off nch D) (past past' : Bool) (junk : List Nat) (hj : junk.length = 36) {fuel fuel' : Nat} (hfu : g.N ≤ fuel + 1) (hfu' : g'.N ≤ fuel' + 1)
    (k : Interp) (hk : k = .quadratic → a.rd.rem ≤ 0) (hpts : PtsOk a.rd) (hc8 : nch ≤ 8) {mm mm' : Int} (hset : BackwardSettings fp a.rd 1)
    {P P' : Int} (hP : StartsBackAt a.rd ((m.length : Int) / 2) ((off + 8) / 2 : Nat) (D / 2 / nch : Nat) nch P) (hP' : StartsBackAt a.rd ((m'.length : Int) / 2) 0 (m'.length / 2 / nch : Nat) nch P')
    (hgood : GoodStart g m ((off + 8) / 2 : Nat) nch P) (hgood' : GoodStart g' m' 0 nch P')
    (hmm0 : 0 ≤ mm) (hmm : 2 * mm + 1 ≤ g.N) (hadv : 128 * (nch * 2) ≤ mm * g.B)
    (hmm0' : 0 ≤ mm') (hmm' : 2 * mm' + 1 ≤ g'.N) (hadv' : 128 * (nch * 2) ≤ mm' * g'.B)
    (nullOk nullOk' : Bool) :
    ∃ a' b', (a.withInterp k).playWav g (some ⟨m, 0, past⟩) junk = .ok (true, a') ∧ (a.withInterp k).playRaw g' (some ⟨m', 0, past'⟩) nch = .ok (true, b') ∧
      SoundAlikeAt fp g g' nullOk nullOk' (fuel + 1) (fuel' + 1) a' b' m (UpToNormal k (SpeedsBack fp 1)) := by
  obtain ⟨a', k1, -, -, -, -, -, k2⟩ := C82_back_wav_partial hfp k g hB hNB a hs.wav.bytes hs.wav.small past junk hj hs.wav.good hs.wav.depth hs.wav.data hs.wav.chans hs.wav.some hc8 hs.wav.len hs.wav.inFile
    hset hk hpts hP hgood hmm0 hmm hadv nullOk hfu
  obtain ⟨b', l1, -, -, -, -, -, l2⟩ := C82_back_raw_partial hfp k g' hB' hNB' a hs.raw.bytes hs.raw.small past' hs.wav.some hc8 hset hk hpts hs.head hP' hgood' hmm0' hmm' hadv' nullOk' hfu'
  refine ⟨a', b', k1, l1, hs.streams hj (by omega) hset.plain k (fun _ => abs_le.2 ⟨by have := hset.rateR; push_cast at this; linarith, by have := neg_of_rnd hset.rateF; linarith⟩) (fun r v hz h => ?_) k1 l1 k2 l2⟩
  exact ⟨⟨⟨h.1.1, h.1.2.1, fun hp => by have h9 := h.1.2.2 hp; simp only [further] at h9; rw [hz.1]; omega⟩, h.2⟩, fun _ => h.2.1⟩

/-- **C91** (round and round, without interpolation at any speed up to `R`, whether positions are rounded or not), while the speed is changed as well. -/
theorem C91_speeds_loop_partial (hfp : Representable fp) {g g' : Geo} (hB : g.B < 16384) (hB' : g'.B < 16384) (hNB : g.N * g.B ≤ 2 ^ 30) (hNB' : g'.N * g'.B ≤ 2 ^ 30)
    (a : FileReader) {m m' : List Nat} {off nch D : Nat} (hs : SamePlay a m m' off nch D) (past past' : Bool) (junk : List Nat) (hj : junk.length = 36) {fuel fuel' : Nat} (hfu : g.N ≤ fuel + 2) (hfu' : g'.N ≤ fuel' + 2)
    (hc' : nch ≤ 32767) {R : Int} {mm mm' : Int} (hset : RepeatSettings a.rd R)
    (hloop : GoodLoop g m ((off + 8) / 2 : Nat) nch a.rd.loopStart a.rd.loopFinish (firstFrame a.rd)) (hloop' : GoodLoop g' m' 0 nch a.rd.loopStart a.rd.loopFinish (firstFrame a.rd))
    (hmm0 : 0 ≤ mm) (hmm : 2 * mm + 5 ≤ g.N) (hadv : 128 * (nch * (R + 1)) ≤ mm * g.B)
    (hmm0' : 0 ≤ mm') (hmm' : 2 * mm' + 5 ≤ g'.N) (hadv' : 128 * (nch * (R + 1)) ≤ mm' * g'.B)
    (nullOk nullOk' : Bool) :
    ∃ a' b', a.playWav g (some ⟨m, 0, past⟩) junk = .ok (true, a') ∧ a.playRaw g' (some ⟨m', 0, past'⟩) nch = .ok (true, b') ∧
      SoundAlikeAt fp g g' nullOk nullOk' (fuel + 2) (fuel' + 2) a' b' m (SpeedsTo R) := by
  obtain ⟨a', k1, -, -, -, -, -, -, -, -, -, k2⟩ := C72_loop_wav_partial fp hfp g hB hNB a hs.wav.bytes hs.wav.small past junk hj hs.wav.good hs.wav.depth hs.wav.data hs.wav.chans hs.wav.some hc'
    hset hloop hmm0 hmm hadv nullOk hfu
  obtain ⟨b', l1, -, -, -, -, -, -, -, -, -, l2⟩ := C72_loop_raw_partial fp hfp g' hB' hNB' a hs.raw.bytes hs.raw.small past' hs.wav.some hc' hset hs.head hloop' hmm0' hmm' hadv' nullOk' hfu'
  have hi := withInterp_none hset.plain.interp
  refine ⟨a', b', k1, l1, hs.streams hj hc' hset.plain .none (fun hk => by cases hk) (fun r v hz h => ?_) (by rw [hi]; exact k1) (by rw [hi]; exact l1) k2 l2⟩
  exact ⟨h, fun hk => by cases hk⟩

/-- **C91** (round and round, with any interpolation at up to normal speed), while the speed is changed as well. -/
theorem C91_smooth_loop_partial (hfp : Representable fp) {g g' : Geo} (hB : g.B < 16384) (hB' : g'.B < 16384) (hNB : g.N * g.B ≤ 2 ^ 30) (hNB' : g'.N * g'.B ≤ 2 ^ 30)
    (a : FileReader) {m m' : List Nat} {off nch D : Nat} (hs : SamePlay a m m' off nch D) (past past' : Bool) (junk : List Nat) (hj : junk.length = 36) {fuel fuel' : Nat} (hfu : g.N ≤ fuel + 2) (hfu' : g'.N ≤ fuel' + 2)
    (k : Interp) (hk : k = .quadratic → 0 ≤ a.rd.rem) (hpts : PtsOk a.rd) (hc8 : nch ≤ 8) {mm mm' : Int} (hset : RepeatSettings a.rd 1)
    (hloop : GoodLoop g m ((off + 8) / 2 : Nat) nch a.rd.loopStart a.rd.loopFinish (firstFrame a.rd)) (hloop' : GoodLoop g' m' 0 nch a.rd.loopStart a.rd.loopFinish (firstFrame a.rd))
    (hmm0 : 0 ≤ mm) (hmm : 2 * mm + 5 ≤ g.N) (hadv : 128 * (nch * 2) ≤ mm * g.B)
    (hmm0' : 0 ≤ mm') (hmm' : 2 * mm' + 5 ≤ g'.N) (hadv' : 128 * (nch * 2) ≤ mm' * g'.B)
    (nullOk nullOk' : Bool) :
    ∃ a' b', (a.withInterp k).playWav g (some ⟨m, 0, past⟩) junk = .ok (true, a') ∧ (a.withInterp k).playRaw g' (some ⟨m', 0, past'⟩) nch = .ok (true, b') ∧
      SoundAlikeAt fp g g' nullOk nullOk' (fuel + 2) (fuel' + 2) a' b' m (UpToNormal k (SpeedsTo 1)) := by
  obtain ⟨a', k1, -, -, -, -, -, -, -, -, k2⟩ := C82_loop_wav_partial hfp k g hB hNB a hs.wav.bytes hs.wav.small past junk hj hs.wav.good hs.wav.depth hs.wav.data hs.wav.chans hs.wav.some hc8
    hset hk hpts hloop hmm0 hmm hadv nullOk hfu
  obtain ⟨b', l1, -, -, -, -, -, -, -, -, l2⟩ := C82_loop_raw_partial hfp k g' hB' hNB' a hs.raw.bytes hs.raw.small past' hs.wav.some hc8 hset hk hpts hs.head hloop' hmm0' hmm' hadv' nullOk' hfu'
  refine ⟨a', b', k1, l1, hs.streams hj (by omega) hset.plain k (fun _ => abs_le.2 ⟨by have := hset.rate0; linarith, by have := hset.rateR; push_cast at this; exact this⟩) (fun r v hz h => ?_) k1 l1 k2 l2⟩
  exact ⟨⟨h.1, h.2⟩, fun _ => h.2.1⟩

/-- **C91** (round and round backwards, without interpolation at any speed up to `R`, whether positions are rounded or not), while the speed is changed as well. -/
theorem C91_speeds_loop_back_partial (hfp : Representable fp) {g g' : Geo} (hB : g.B < 16384) (hB' : g'.B < 16384) (hNB : g.N * g.B ≤ 2 ^ 30) (hNB' : g'.N * g'.B ≤ 2 ^ 30)
    (a : FileReader) {m m' : List Nat} {off nch D : Nat} (hs : SamePlay a m m' off nch D) (past past' : Bool) (junk : List Nat) (hj : junk.length = 36) {fuel fuel' : Nat} (hfu : g.N ≤ fuel + 2) (hfu' : g'.N ≤ fuel' + 2)
    (hc' : nch ≤ 32767) {R : Int} {mm mm' : Int} (hset : RepeatBackSettings fp a.rd R)
    {P P' : Int} (hP : StartsBackAt a.rd ((m.length : Int) / 2) ((off + 8) / 2 : Nat) a.rd.loopFinish nch P) (hP' : StartsBackAt a.rd ((m'.length : Int) / 2) 0 a.rd.loopFinish nch P')
    (hloop : GoodLoopBack g m ((off + 8) / 2 : Nat) nch a.rd.loopStart a.rd.loopFinish P) (hloop' : GoodLoopBack g' m' 0 nch a.rd.loopStart a.rd.loopFinish P')
    (hmm0 : 0 ≤ mm) (hmm : 2 * mm + 5 ≤ g.N) (hadv : 128 * (nch * (R + 1)) + nch * nch ≤ mm * g.B)
    (hmm0' : 0 ≤ mm') (hmm' : 2 * mm' + 5 ≤ g'.N) (hadv' : 128 * (nch * (R + 1)) + nch * nch ≤ mm' * g'.B)
    (nullOk nullOk' : Bool) :
    ∃ a' b', a.playWav g (some ⟨m, 0, past⟩) junk = .ok (true, a') ∧ a.playRaw g' (some ⟨m', 0, past'⟩) nch = .ok (true, b') ∧
      SoundAlikeAt fp g g' nullOk nullOk' (fuel + 2) (fuel' + 2) a' b' m (SpeedsBack fp R) := by
  obtain ⟨a', k1, -, -, -, -, -, -, -, -, -, k2⟩ := C72_loop_back_wav_partial fp hfp g hB hNB a hs.wav.bytes hs.wav.small past junk hj hs.wav.good hs.wav.depth hs.wav.data hs.wav.chans hs.wav.some hc'
    hset hP hloop hmm0 hmm hadv nullOk hfu
  obtain ⟨b', l1, -, -, -, -, -, -, -, -, -, l2⟩ := C72_loop_back_raw_partial fp hfp g' hB' hNB' a hs.raw.bytes hs.raw.small past' hs.wav.some hc' hset hs.head hP' hloop' hmm0' hmm' hadv' nullOk' hfu'
  have hi := withInterp_none hset.plain.interp
  refine ⟨a', b', k1, l1, hs.streams hj hc' hset.plain .none (fun hk => by cases hk) (fun r v hz h => ?_) (by rw [hi]; exact k1) (by rw [hi]; exact l1) k2 l2⟩
  exact ⟨⟨h.1, h.2.1, fun hp => by have h9 := h.2.2 hp; simp only [further] at h9; rw [hz.1]; omega⟩, fun hk => by cases hk⟩

/-- **C91** (round and round backwards, with any interpolation at up to normal speed), while the speed is changed as well. -/
theorem C91_smooth_loop_back_partial (hfp : Representable fp) {g g' : Geo} (hB : g.B < 16384) (hB' : g'.B < 16384) (hNB : g.N * g.B ≤ 2 ^ 30) (hNB' : g'.N * g'.B ≤ 2 ^ 30)
    (a : FileReader) {m m' : List Nat} {off nch D : Nat} (hs : SamePlay a m m' off nch D) (past past' : Bool) (junk : List Nat) (hj : junk.length = 36) {fuel fuel' : Nat} (hfu : g.N ≤ fuel + 2) (hfu' : g'.N ≤ fuel' + 2)
    (k : Interp) (hk : k = .quadratic → a.rd.rem ≤ 0) (hpts : PtsOk a.rd) (hc8 : nch ≤ 8) {mm mm' : Int} (hset : RepeatBackSettings fp a.rd 1)
    {P P' : Int} (hP : StartsBackAt a.rd ((m.length : Int) / 2) ((off + 8) / 2 : Nat) a.rd.loopFinish nch P) (hP' : StartsBackAt a.rd ((m'.length : Int) / 2) 0 a.rd.loopFinish nch P')
    (hloop : GoodLoopBack g m ((off + 8) / 2 : Nat) nch a.rd.loopStart a.rd.loopFinish P) (hloop' : GoodLoopBack g' m' 0 nch a.rd.loopStart a.rd.loopFinish P')
    (hmm0 : 0 ≤ mm) (hmm : 2 * mm + 5 ≤ g.N) (hadv : 128 * (nch * 2) + nch * nch ≤ mm * g.B)
    (hmm0' : 0 ≤ mm') (hmm' : 2 * mm' + 5 ≤ g'.N) (hadv' : 128 * (nch * 2) + nch * nch ≤ mm' * g'.B)
    (nullOk nullOk' : Bool) :
    ∃ a' b', (a.withInterp k).playWav g (some ⟨m, 0, past⟩) junk = .ok (true, a') ∧ (a.withInterp k).playRaw g' (some ⟨m', 0, past'⟩) nch = .ok (true, b') ∧
      SoundAlikeAt fp g g' nullOk nullOk' (fuel + 2) (fuel' + 2) a' b' m (UpToNormal k (SpeedsBack fp 1)) := by
  obtain ⟨a', k1, -, -, -, -, -, -, -, -, k2⟩ := C82_loop_back_wav_partial hfp k g hB hNB a hs.wav.bytes hs.wav.small past junk hj hs.wav.good hs.wav.depth hs.wav.data hs.wav.chans hs.wav.some hc8
    hset hk hpts hP hloop hmm0 hmm hadv nullOk hfu
  obtain ⟨b', l1, -, -, -, -, -, -, -, -, l2⟩ := C82_loop_back_raw_partial hfp k g' hB' hNB' a hs.raw.bytes hs.raw.small past' hs.wav.some hc8 hset hk hpts hs.head hP' hloop' hmm0' hmm' hadv' nullOk' hfu'
  refine ⟨a', b', k1, l1, hs.streams hj (by omega) hset.plain k (fun _ => abs_le.2 ⟨by have := hset.rateR; push_cast at this; linarith, by have := neg_of_rnd hset.rateF; linarith⟩) (fun r v hz h => ?_) k1 l1 k2 l2⟩
  exact ⟨⟨⟨h.1.1, h.1.2.1, fun hp => by have h9 := h.1.2.2 hp; simp only [further] at h9; rw [hz.1]; omega⟩, h.2⟩, fun _ => h.2.1⟩

/-- **C91** (to and fro, without interpolation at any speed up to `R`, whether positions are rounded or not), while the speed is changed as well. -/
theorem C91_speeds_ping_partial (hfp : Representable fp) {g g' : Geo} (hB : g.B < 16384) (hB' : g'.B < 16384) (hNB : g.N * g.B ≤ 2 ^ 30) (hNB' : g'.N * g'.B ≤ 2 ^ 30)
    (a : FileReader) {m m' : List Nat} {off nch D : Nat} (hs : SamePlay a m m' off nch D) (past past' : Bool) (junk : List Nat) (hj : junk.length = 36) {fuel fuel' : Nat} (hfu : g.N ≤ fuel + 2) (hfu' : g'.N ≤ fuel' + 2)
    (hc' : nch ≤ 32767) {R : Int} (hset : PingSettings fp a.rd R)
    {P T P' T' : Int} (hP : StartsPingAt a.rd ((m.length : Int) / 2) ((off + 8) / 2 : Nat) nch P) (hT : TurnsBelowAt a.rd ((off + 8) / 2 : Nat) nch T) (hP' : StartsPingAt a.rd ((m'.length : Int) / 2) 0 nch P') (hT' : TurnsBelowAt a.rd 0 nch T')
    (hloop : GoodPing g m (0 ≤ a.rd.rate) ((off + 8) / 2 : Nat) nch a.rd.loopStart a.rd.loopFinish T R P) (hloop' : GoodPing g' m' (0 ≤ a.rd.rate) 0 nch a.rd.loopStart a.rd.loopFinish T' R P')
    (nullOk nullOk' : Bool) :
    ∃ a' b', a.playWav g (some ⟨m, 0, past⟩) junk = .ok (true, a') ∧ a.playRaw g' (some ⟨m', 0, past'⟩) nch = .ok (true, b') ∧
      SoundAlikeAt fp g g' nullOk nullOk' (fuel + 2) (fuel' + 2) a' b' m (SpeedsPing fp R) := by
  obtain ⟨a', k1, -, -, -, -, -, -, -, -, -, k2⟩ := C72_ping_wav_partial fp hfp g hB hNB a hs.wav.bytes hs.wav.small past junk hj hs.wav.good hs.wav.depth hs.wav.data hs.wav.chans hs.wav.some hc'
    hset hP hT hloop nullOk hfu
  obtain ⟨b', l1, -, -, -, -, -, -, -, -, -, l2⟩ := C72_ping_raw_partial fp hfp g' hB' hNB' a hs.raw.bytes hs.raw.small past' hs.wav.some hc' hset hs.head hP' hT' hloop' nullOk' hfu'
  have hi := withInterp_none hset.plain.interp
  refine ⟨a', b', k1, l1, hs.streams hj hc' hset.plain .none (fun hk => by cases hk) (fun r v hz h => ?_) (by rw [hi]; exact k1) (by rw [hi]; exact l1) k2 l2⟩
  exact ⟨⟨h.1, h.2.1, h.2.2.1, fun hp => inside_further hz.1 (h.2.2.2 hp)⟩, fun hk => by cases hk⟩

/-- **C91** (to and fro, with linear interpolation at up to normal speed), while the speed is changed as well. -/
theorem C91_smooth_ping_partial (hfp : Representable fp) {g g' : Geo} (hB : g.B < 16384) (hB' : g'.B < 16384) (hNB : g.N * g.B ≤ 2 ^ 30) (hNB' : g'.N * g'.B ≤ 2 ^ 30)
    (a : FileReader) {m m' : List Nat} {off nch D : Nat} (hs : SamePlay a m m' off nch D) (past past' : Bool) (junk : List Nat) (hj : junk.length = 36) {fuel fuel' : Nat} (hfu : g.N ≤ fuel + 2) (hfu' : g'.N ≤ fuel' + 2)
    (hpts : PtsOk a.rd) (hc8 : nch ≤ 8) (hset : PingSettings fp a.rd 1)
    {P T P' T' : Int} (hP : StartsPingAt a.rd ((m.length : Int) / 2) ((off + 8) / 2 : Nat) nch P) (hT : TurnsBelowAt a.rd ((off + 8) / 2 : Nat) nch T) (hP' : StartsPingAt a.rd ((m'.length : Int) / 2) 0 nch P') (hT' : TurnsBelowAt a.rd 0 nch T')
    (hloop : GoodPing g m (0 ≤ a.rd.rate) ((off + 8) / 2 : Nat) nch a.rd.loopStart a.rd.loopFinish T 1 P) (hloop' : GoodPing g' m' (0 ≤ a.rd.rate) 0 nch a.rd.loopStart a.rd.loopFinish T' 1 P')
    (nullOk nullOk' : Bool) :
    ∃ a' b', (a.withInterp .linear).playWav g (some ⟨m, 0, past⟩) junk = .ok (true, a') ∧ (a.withInterp .linear).playRaw g' (some ⟨m', 0, past'⟩) nch = .ok (true, b') ∧
      SoundAlikeAt fp g g' nullOk nullOk' (fuel + 2) (fuel' + 2) a' b' m (UpToNormal .linear (SpeedsPing fp 1)) := by
  obtain ⟨a', k1, -, -, -, -, -, -, -, -, k2⟩ := C82_ping_wav_partial hfp g hB hNB a hs.wav.bytes hs.wav.small past junk hj hs.wav.good hs.wav.depth hs.wav.data hs.wav.chans hs.wav.some hc8
    hset hpts hP hT hloop nullOk hfu
  obtain ⟨b', l1, -, -, -, -, -, -, -, -, l2⟩ := C82_ping_raw_partial hfp g' hB' hNB' a hs.raw.bytes hs.raw.small past' hs.wav.some hc8 hset hpts hs.head hP' hT' hloop' nullOk' hfu'
  refine ⟨a', b', k1, l1, hs.streams hj (by omega) hset.plain .linear (fun _ => by have := hset.rateR; push_cast at this; exact this) (fun r v hz h => ?_) k1 l1 k2 l2⟩
  exact ⟨⟨⟨h.1.1, h.1.2.1, h.1.2.2.1, fun hp => inside_further hz.1 (h.1.2.2.2 hp)⟩, h.2⟩, fun _ => h.2.1⟩

/-! ## Examples -/

theorem exWav_exRaw (a : FileReader) (h : a.rd.header = 0) (hin : SetWithin a.rd 2) : SamePlay a exWav exRaw 48 2 8 :=
  ⟨exWav_file, exRaw_same, by decide, h, hin, fun _ _ => by decide⟩

theorem exCount_exCountRaw (a : FileReader) (h : a.rd.header = 0) (hin : SetWithin a.rd 1500) : SamePlay a exCount exCountRaw 48 2 6000 :=
  ⟨exCount_file, exCountRaw_same, by rw [exCountRaw_length], h, hin, fun _ _ => by rw [exCountRaw_length]; decide +kernel⟩

theorem exCountMore_exCountMoreRaw (a : FileReader) (h : a.rd.header = 0) (hin : SetWithin a.rd 3350) : SamePlay a exCountMore exCountMoreRaw 48 2 13400 :=
  ⟨exCountMore_file, exCountMoreRaw_same, by rw [exCountMoreRaw_length], h, hin, fun _ _ => by rw [exCountMoreRaw_length, exCountMore_length]⟩

/-- Forwards at half speed with quadratic interpolation. -/
example : ∃ a' b', exHalfSmooth.playWav sdGeo (some ⟨exWav, 0, false⟩) (List.replicate 36 7) = .ok (true, a') ∧
    exHalfSmooth.playRaw ⟨9, 5, fun _ => []⟩ (some ⟨exRaw, 0, true⟩) 2 = .ok (true, b') ∧
    SoundAlikeAt Fp.ieee sdGeo ⟨9, 5, fun _ => []⟩ true false (6 + 1) (6 + 1) a' b' exWav (SmoothUpTo 1) :=
  C91_smooth_forward_partial ieee_representable (by decide) (by decide) (by decide) (by decide) exHalfSmooth exWav_file exRaw_same (by decide) (by decide) false true
    (List.replicate 36 7) (by decide) (by decide) rfl (by decide) (R := 1) (mm := 2) (mm' := 2) exHalfSmooth_settings (fun h => nomatch h) (fun _ => by decide) (fun h => nomatch h)
    (by decide) (by decide) (by decide) (by decide) (by decide) (by decide) true false (by decide) (by decide)

/-- Backwards at half speed. -/
example : ∃ a' b', exMinusHalf.playWav sdGeo (some ⟨exWav, 0, false⟩) (List.replicate 36 7) = .ok (true, a') ∧
    exMinusHalf.playRaw ⟨9, 5, fun _ => []⟩ (some ⟨exRaw, 0, true⟩) 2 = .ok (true, b') ∧
    SoundAlikeAt Fp.ieee sdGeo ⟨9, 5, fun _ => []⟩ true false (6 + 1) (6 + 1) a' b' exWav (SpeedsBack Fp.ieee 1) :=
  C91_speeds_back_partial ieee_representable (by decide) (by decide) (by decide) (by decide) exMinusHalf
    (exWav_exRaw _ rfl ⟨(fun h => nomatch h), fun h => absurd rfl h, fun h => absurd rfl h⟩) false true (List.replicate 36 7) (by decide) (by decide) (by decide) (by decide)
    (mm := 1) (mm' := 2) exMinusHalf_settings (P := 30) (P' := 2) (by show (30 : Int) = _; decide) (by show (2 : Int) = _; decide)
    ⟨by decide, by decide, by decide, by decide⟩ ⟨by decide, by decide, by decide, by decide⟩
    (by decide) (by decide) (by decide) (by decide) (by decide) (by decide) true false

example : ∃ a' b', (exMinusHalf.withInterp .linear).playWav sdGeo (some ⟨exWav, 0, false⟩) (List.replicate 36 7) = .ok (true, a') ∧
    (exMinusHalf.withInterp .linear).playRaw ⟨9, 5, fun _ => []⟩ (some ⟨exRaw, 0, true⟩) 2 = .ok (true, b') ∧
    SoundAlikeAt Fp.ieee sdGeo ⟨9, 5, fun _ => []⟩ true false (6 + 1) (6 + 1) a' b' exWav (UpToNormal .linear (SpeedsBack Fp.ieee 1)) :=
  C91_smooth_back_partial ieee_representable (by decide) (by decide) (by decide) (by decide) exMinusHalf
    (exWav_exRaw _ rfl ⟨(fun h => nomatch h), fun h => absurd rfl h, fun h => absurd rfl h⟩) false true (List.replicate 36 7) (by decide) (by decide) (by decide) .linear
    (fun _ => le_refl _) pts_new (by decide) (mm := 1) (mm' := 2) exMinusHalf_settings (P := 30) (P' := 2) (by show (30 : Int) = _; decide) (by show (2 : Int) = _; decide)
    ⟨by decide, by decide, by decide, by decide⟩ ⟨by decide, by decide, by decide, by decide⟩
    (by decide) (by decide) (by decide) (by decide) (by decide) (by decide) true false

theorem exFew_setWithin : SetWithin exFew.rd 1500 := ⟨fun _ => by decide, fun _ => by decide, fun _ => by decide⟩

theorem exFewBack_setWithin : SetWithin exFewBack.rd 3350 := ⟨fun _ => by decide, fun _ => by decide, fun _ => by decide⟩

theorem exFewPing_setWithin : SetWithin exFewPing.rd 1500 := ⟨fun _ => by decide, fun _ => by decide, fun _ => by decide⟩

/-- Frames 10 to 13 again and again at half speed. -/
example : ∃ a' b', exFew.playWav exFineGeo (some ⟨exCount, 0, false⟩) (List.replicate 36 7) = .ok (true, a') ∧
    exFew.playRaw exFineGeo (some ⟨exCountRaw, 0, true⟩) 2 = .ok (true, b') ∧
    SoundAlikeAt Fp.ieee exFineGeo exFineGeo true false (5 + 2) (5 + 2) a' b' exCount (SpeedsTo 1) :=
  C91_speeds_loop_partial ieee_representable (by decide) (by decide) (by decide) (by decide) exFew (exCount_exCountRaw _ rfl exFew_setWithin)
    false true (List.replicate 36 7) (by decide) (by decide) (by decide) (by decide) (mm := 1) (mm' := 1) exFew_settings
    ⟨by decide, by decide, by decide +kernel, by decide, by decide, Or.inr ⟨by decide, by decide +kernel⟩⟩
    ⟨by decide, by decide, by rw [exCountRaw_length]; decide, by decide, by decide, Or.inr ⟨by decide, by rw [exCountRaw_length]; decide⟩⟩
    (by decide) (by decide) (by decide) (by decide) (by decide) (by decide) true false

example : ∃ a' b', (exFew.withInterp .quadratic).playWav exFineGeo (some ⟨exCount, 0, false⟩) (List.replicate 36 7) = .ok (true, a') ∧
    (exFew.withInterp .quadratic).playRaw exFineGeo (some ⟨exCountRaw, 0, true⟩) 2 = .ok (true, b') ∧
    SoundAlikeAt Fp.ieee exFineGeo exFineGeo true false (5 + 2) (5 + 2) a' b' exCount (UpToNormal .quadratic (SpeedsTo 1)) :=
  C91_smooth_loop_partial ieee_representable (by decide) (by decide) (by decide) (by decide) exFew (exCount_exCountRaw _ rfl exFew_setWithin)
    false true (List.replicate 36 7) (by decide) (by decide) (by decide) .quadratic (fun _ => le_refl _) pts_new (by decide) (mm := 1) (mm' := 1) exFew_settings
    ⟨by decide, by decide, by decide +kernel, by decide, by decide, Or.inr ⟨by decide, by decide +kernel⟩⟩
    ⟨by decide, by decide, by rw [exCountRaw_length]; decide, by decide, by decide, Or.inr ⟨by decide, by rw [exCountRaw_length]; decide⟩⟩
    (by decide) (by decide) (by decide) (by decide) (by decide) (by decide) true false

/-- Frames 3100 to 3103 again and again, backwards at half speed. -/
example : ∃ a' b', exFewBack.playWav exFinerGeo (some ⟨exCountMore, 0, false⟩) (List.replicate 36 7) = .ok (true, a') ∧
    exFewBack.playRaw exFinerGeo (some ⟨exCountMoreRaw, 0, true⟩) 2 = .ok (true, b') ∧
    SoundAlikeAt Fp.ieee exFinerGeo exFinerGeo true false (5 + 2) (5 + 2) a' b' exCountMore (SpeedsBack Fp.ieee 1) :=
  C91_speeds_loop_back_partial ieee_representable (by decide) (by decide) (by decide) (by decide) exFewBack (exCountMore_exCountMoreRaw _ rfl exFewBack_setWithin)
    false true (List.replicate 36 7) (by decide) (by decide) (by decide) (by decide) (mm := 1) (mm' := 1) exFewBack_settings
    (exFewBack_start ((exCountMore.length : Int) / 2)) (exFewBack_start_raw ((exCountMoreRaw.length : Int) / 2)) exFewBack_loop exFewBack_loop_raw
    (by decide) (by decide) (by decide) (by decide) (by decide) (by decide) true false

example : ∃ a' b', (exFewBack.withInterp .linear).playWav exFinerGeo (some ⟨exCountMore, 0, false⟩) (List.replicate 36 7) = .ok (true, a') ∧
    (exFewBack.withInterp .linear).playRaw exFinerGeo (some ⟨exCountMoreRaw, 0, true⟩) 2 = .ok (true, b') ∧
    SoundAlikeAt Fp.ieee exFinerGeo exFinerGeo true false (5 + 2) (5 + 2) a' b' exCountMore (UpToNormal .linear (SpeedsBack Fp.ieee 1)) :=
  C91_smooth_loop_back_partial ieee_representable (by decide) (by decide) (by decide) (by decide) exFewBack (exCountMore_exCountMoreRaw _ rfl exFewBack_setWithin)
    false true (List.replicate 36 7) (by decide) (by decide) (by decide) .linear (fun _ => le_refl _) pts_new (by decide) (mm := 1) (mm' := 1) exFewBack_settings
    (exFewBack_start ((exCountMore.length : Int) / 2)) (exFewBack_start_raw ((exCountMoreRaw.length : Int) / 2)) exFewBack_loop exFewBack_loop_raw
    (by decide) (by decide) (by decide) (by decide) (by decide) (by decide) true false

theorem exFewPing_good : GoodPing exFineGeo exCount (0 ≤ exFewPing.rd.rate) ((48 + 8) / 2 : Nat) (2 : Nat) exFewPing.rd.loopStart exFewPing.rd.loopFinish 48 1 52 :=
  ⟨by decide, by decide, by decide +kernel, by decide, by decide, ⟨by decide, by decide +kernel, by decide⟩,
    fun _ => ⟨by decide, Or.inr ⟨by decide, by decide, by decide +kernel⟩⟩, fun h => absurd (by norm_num [exFewPing]) h⟩

theorem exFewPing_good_raw : GoodPing exFineGeo exCountRaw (0 ≤ exFewPing.rd.rate) 0 (2 : Nat) exFewPing.rd.loopStart exFewPing.rd.loopFinish 20 1 24 :=
  ⟨by decide, by decide, by rw [exCountRaw_length]; decide, by decide, by decide, ⟨by decide, by rw [exCountRaw_length]; decide, by decide⟩,
    fun _ => ⟨by decide, Or.inr ⟨by decide, by decide, by rw [exCountRaw_length]; decide⟩⟩, fun h => absurd (by norm_num [exFewPing]) h⟩

/-- Frames 10 to 15 to and fro. -/
example : ∃ a' b', exFewPing.playWav exFineGeo (some ⟨exCount, 0, false⟩) (List.replicate 36 7) = .ok (true, a') ∧
    exFewPing.playRaw exFineGeo (some ⟨exCountRaw, 0, true⟩) 2 = .ok (true, b') ∧
    SoundAlikeAt Fp.ieee exFineGeo exFineGeo true false (5 + 2) (5 + 2) a' b' exCount (SpeedsPing Fp.ieee 1) :=
  C91_speeds_ping_partial ieee_representable (by decide) (by decide) (by decide) (by decide) exFewPing (exCount_exCountRaw _ rfl exFewPing_setWithin)
    false true (List.replicate 36 7) (by decide) (by decide) (by decide) (by decide) exFewPing_settings
    (P := 52) (P' := 24) (by unfold StartsPingAt; rw [if_pos (by norm_num [exFewPing])]; decide) (by unfold TurnsBelowAt; decide)
    (by unfold StartsPingAt; rw [if_pos (by norm_num [exFewPing])]; decide) (by unfold TurnsBelowAt; decide) exFewPing_good exFewPing_good_raw true false

example : ∃ a' b', (exFewPing.withInterp .linear).playWav exFineGeo (some ⟨exCount, 0, false⟩) (List.replicate 36 7) = .ok (true, a') ∧
    (exFewPing.withInterp .linear).playRaw exFineGeo (some ⟨exCountRaw, 0, true⟩) 2 = .ok (true, b') ∧
    SoundAlikeAt Fp.ieee exFineGeo exFineGeo true false (5 + 2) (5 + 2) a' b' exCount (UpToNormal .linear (SpeedsPing Fp.ieee 1)) :=
  C91_smooth_ping_partial ieee_representable (by decide) (by decide) (by decide) (by decide) exFewPing (exCount_exCountRaw _ rfl exFewPing_setWithin)
    false true (List.replicate 36 7) (by decide) (by decide) (by decide) pts_new (by decide) exFewPing_settings
    (P := 52) (P' := 24) (by unfold StartsPingAt; rw [if_pos (by norm_num [exFewPing])]; decide) (by unfold TurnsBelowAt; decide)
    (by unfold StartsPingAt; rw [if_pos (by norm_num [exFewPing])]; decide) (by unfold TurnsBelowAt; decide) exFewPing_good exFewPing_good_raw true false

/-- What is asked by `C91_streams_partial` of the settings and the files is met by a player at half speed with quadratic interpolation. -/
example {g g' : Geo} {fuel fuel' : Nat} {a' b' : FileReader} {ok : Rd → ℚ → Prop} (hok : ∀ H S r v, ok (further H S r) v → ok r v)
    (hwav : exHalfSmooth.playWav g (some ⟨exWav, 0, false⟩) (List.replicate 36 7) = .ok (true, a')) (hraw : exHalfSmooth.playRaw g' (some ⟨exRaw, 0, false⟩) (2 : Nat) = .ok (true, b'))
    (h : LikeInMemoryAt Fp.ieee g true fuel a' exWav ok) (h' : LikeInMemoryAt Fp.ieee g' true fuel' b' exRaw ok) :
    SoundAlikeAt Fp.ieee g g' true true fuel fuel' a' b' exWav ok :=
  C91_streams_partial (a := exHalfSmooth) exWav_file exRaw_same (by decide) (by decide) (by decide) rfl rfl ⟨(fun h => nomatch h), fun h => absurd rfl h, fun h => absurd rfl h⟩
    (fun _ _ => by decide) (fun h => nomatch h) (fun r v _ h => ⟨hok _ _ _ _ h, (fun h => nomatch h)⟩) hwav hraw h h'

/-- Sixteen frames (10 i, 7). -/
def exTens : List Nat := (List.range 16).flatMap fun i => [10 * i, 0, 7, 0]

/-- The same as a WAV file. -/
def exTensWav : List Nat := wav exFields (some [73, 78, 70, 79]) 64 exTens

theorem exTensWav_file : WavFile exTensWav 48 2 64 := by
  refine ⟨?_, ?_, ?_, ?_, ?_, ?_, ?_, ?_, ?_, ?_⟩ <;>
    first
      | (unfold IsBytes; decide +kernel)
      | decide +kernel
      | exact ⟨Or.inr ⟨by decide +kernel, by decide +kernel⟩, by decide +kernel, by decide +kernel⟩

theorem exTens_same : SameFrames exTensWav 48 2 64 exTens :=
  ⟨by unfold IsBytes; decide +kernel, by decide +kernel, by decide +kernel, fun i ch h1 h2 =>
    (by decide +kernel : ∀ i < 64 / 2 / 2, ∀ ch < 2, dataSample exTensWav (48 + 8) (i * 2 + ch) = dataSample exTens 0 (i * 2 + ch)) i h1 ch h2⟩

/-- **C91 refuted** (linear interpolation above normal speed).  Where the sample between is fetched depends on how long the header is: the position in
the file, header included, is compared with twice the header (src/ResamplingReader.h:413).  At two and a half times normal speed the second sample
of the raw file lies between frames 1 and 2, that of the WAV file between frames 0 and 2. -/
theorem C91_linear_refuted : WavFile exTensWav 48 2 64 ∧ SameFrames exTensWav 48 2 64 exTens ∧
    firstBlock { rate := 5 / 2, interp := .linear } exTensWav = .ok [[0, 10, 20]] ∧ firstRawBlock { rate := 5 / 2, interp := .linear } exTens 2 = .ok [[0, 15, 20]] :=
  ⟨exTensWav_file, exTens_same, by decide +kernel, by decide +kernel⟩

end TVP
