import Verif.Props.Mirror
import Verif.Props.Swing

/-!
# Property C90: loops to and fro, written out
-/

namespace TVP
open Spec

/-- **C90** (to and fro, partial: at normal speed, from a whole frame).  Let `m'` hold, from its frame `q` on, the frames of `m` in the
order in which the loop meets them to and fro.  Then the loop in `m` sounds exactly like `m'` played once, for as long as `m'` lasts. -/
theorem C90_pingpong_partial (fp : Fp) (hfp : Representable fp) {g g' : Geo} (hB : g.B < 16384) (hB' : g'.B < 16384) (hNB : g.N * g.B ≤ 2 ^ 30) (hNB' : g'.N * g'.B ≤ 2 ^ 30)
    (a b : FileReader) {m m' : List Nat} {off off' nch D D' : Nat} (hw : WavFile m off nch D) (hw' : WavFile m' off' nch D') {q : Nat}
    (hout : ∀ (t i ch : Nat), q + t < D' / 2 / nch → ch < nch → bouncePath (firstFrame a.rd) a.rd.loopStart a.rd.loopFinish nch t = some i →
      dataSample m' (off' + 8) ((q + t) * nch + ch) = dataSample m (off + 8) (i * nch + ch))
    (past past' : Bool) (junk junk' : List Nat) (hj : junk.length = 36) (hj' : junk'.length = 36) (hc' : nch ≤ 32767) {mm' : Int}
    (hset : PingSettings fp a.rd 1) (hset' : ForwardSettings b.rd 1) (hrate : a.rd.rate = 1) (hrate' : b.rd.rate = 1) (hrem : a.rd.rem = 0) (hrem' : b.rd.rem = 0)
    (hq : (if b.rd.playStart = .arbitrary then b.rd.playbackStart else 0) = q) (hqD : q ≤ D' / 2 / nch) (hroom' : off' + 8 < m'.length)
    (hwhole : a.rd.playStart = .sample → a.rd.loopStart = 0) (hin : a.rd.loopStart ≤ firstFrame a.rd)
    (hloop : GoodPing g m (0 ≤ a.rd.rate) ((off + 8) / 2 : Nat) nch a.rd.loopStart a.rd.loopFinish (((off + 8) / 2 : Nat) + a.rd.loopStart * nch) 1
      (((off + 8) / 2 : Nat) + firstFrame a.rd * nch))
    (hmm0' : 0 ≤ mm') (hmm' : 2 * mm' + 1 ≤ g'.N) (hadv' : 128 * (nch * 2) ≤ mm' * g'.B)
    (nullOk nullOk' : Bool) {fuel fuel' : Nat} (hf : g.N ≤ fuel + 2) (hf' : g'.N ≤ fuel' + 2) :
    ∃ a' b', a.playWav g (some ⟨m, 0, past⟩) junk = .ok (true, a') ∧ b.playWav g' (some ⟨m', 0, past'⟩) junk' = .ok (true, b') ∧
      SoundAlike fp g g' nullOk nullOk' (fuel + 2) (fuel' + 2) a' b' (fun n => q + 128 * n ≤ D' / 2 / nch) := by
  obtain ⟨a', k1, k2⟩ := C84_pingpong_partial fp hfp g hB hNB a hw.bytes hw.small past junk hj hw.good hw.depth hw.data hw.even hw.chans hw.some hc' hset hrate hrem hwhole hin hloop
    nullOk hf
  obtain ⟨b', l1, l2⟩ := forth_sends fp hfp g' hB' hNB' b hw' past' junk' hj' hc' hroom' hset' (p := 0) (by rw [hrate']; exact ⟨by norm_num, ⟨1, by norm_num⟩, by norm_num, by norm_num⟩)
    (by rw [hrem']; simpa using OnGrid.int 0 0) (by rw [hrem']) (fun h => by rw [if_pos h] at hq; rw [hq]; exact ⟨Int.natCast_nonneg _, by exact_mod_cast hqD⟩) hmm0' hmm' hadv' nullOk' hf'
  rw [hrem', hrate', hq] at l2
  refine ⟨a', b', k1, l1, k2.alike l2 hw.some fun n hn t ht => ?_⟩
  have e : ⌊(((q : Nat) : Int) : ℚ) + 0 + t * 1⌋ = ((q + t : Nat) : Int) := by
    rw [show (((q : Nat) : Int) : ℚ) + 0 + t * 1 = (((q + t : Nat) : Int) : ℚ) by push_cast; ring, Int.floor_intCast]
  have hlt : q + t < D' / 2 / nch := by
    clear hloop hout; omega
  have e2 : forthPath ((D' / 2 / nch : Nat) : Int) ((((q : Nat) : Int) : ℚ) + 0) 1 t = some (q + t) := by
    unfold forthPath
    rw [e, if_pos (by exact_mod_cast hlt), Int.toNat_natCast]
  refine ⟨by rw [e2]; rfl, fun i j ch hi hjj hch => ?_⟩
  rw [e2] at hjj
  rw [← Option.some.inj hjj]
  exact (hout t i ch hlt hch hi).symm

/-! ## Examples -/

/-- The frames that are heard of `exCount` if those from 10 to 15 are played to and fro, from frame 12 on. -/
def exCountPing : List Nat := wav exFields (some [73, 78, 70, 79]) 1600 ((List.range 400).flatMap fun j => [((bouncePath 12 10 16 2 j).getD 0), 0, 7, 0])

theorem exCountPing_file : WavFile exCountPing 48 2 1600 :=
  ⟨by unfold IsBytes; decide +kernel, by decide +kernel, by decide +kernel, by decide +kernel, ⟨Or.inr ⟨by decide +kernel, by decide +kernel⟩, by decide +kernel, by decide +kernel⟩,
    by decide, by decide +kernel, by decide +kernel, by decide +kernel, by decide⟩

def exFewPing : FileReader := { rd := { rate := 1, loopType := .pingpong, loopStart := 10, loopFinish := 16, playStart := .arbitrary, playbackStart := 12 } }

theorem exFewPing_settings : PingSettings Fp.ieee exFewPing.rd 1 :=
  ⟨⟨rfl, rfl⟩, rfl, by show Fp.ieee.f.rnd 1 ≠ 0; decide +kernel, by norm_num [exFewPing], exHalf_settings.flt, by norm_num [exFewPing]⟩

def exOne : FileReader := { rd := { rate := 1 } }

theorem exOne_settings : ForwardSettings exOne.rd 1 :=
  ⟨⟨rfl, rfl⟩, rfl, by norm_num [exOne], by norm_num [exOne], exHalf_settings.flt, by norm_num [exOne]⟩

theorem exCountPing_written (t i ch : Nat) (h1 : 0 + t < 400) (h2 : ch < 2) (h : bouncePath (firstFrame exFewPing.rd) exFewPing.rd.loopStart exFewPing.rd.loopFinish (2 : Nat) t = some i) :
    dataSample exCountPing (48 + 8) ((0 + t) * 2 + ch) = dataSample exCount (48 + 8) (i * 2 + ch) := by
  have h0 : ∀ t < 400, ∀ ch < 2, dataSample exCountPing (48 + 8) ((0 + t) * 2 + ch) =
      dataSample exCount (48 + 8) ((bouncePath (firstFrame exFewPing.rd) exFewPing.rd.loopStart exFewPing.rd.loopFinish (2 : Nat) t).getD 0 * 2 + ch) := by decide +kernel
  have := h0 t (by omega) ch h2
  rwa [h] at this

/-- Frames 10 to 15 to and fro sound like what is written out, for three updates. -/
example : ∃ a' b', exFewPing.playWav exFineGeo (some ⟨exCount, 0, false⟩) (List.replicate 36 7) = .ok (true, a') ∧
    exOne.playWav sdGeo (some ⟨exCountPing, 0, true⟩) (List.replicate 36 0) = .ok (true, b') ∧
    SoundAlike Fp.ieee exFineGeo sdGeo true false (5 + 2) (5 + 2) a' b' (fun n => 0 + 128 * n ≤ 1600 / 2 / 2) :=
  C90_pingpong_partial Fp.ieee ieee_representable (g := exFineGeo) (g' := sdGeo) (by decide) (by decide) (by decide) (by decide) exFewPing exOne exCount_file exCountPing_file
    (q := 0) (fun t i ch h1 h2 h => exCountPing_written t i ch h1 h2 h)
    false true (List.replicate 36 7) (List.replicate 36 0) (by decide) (by decide) (by decide) (mm' := 1) exFewPing_settings exOne_settings rfl rfl rfl rfl rfl (by decide)
    (by decide +kernel) (fun h => by cases h) (by decide)
    ⟨by decide, by decide, by decide +kernel, by decide, by decide, ⟨by decide, by decide +kernel, by decide⟩,
      fun _ => ⟨by decide, Or.inr ⟨by decide, by decide, by decide +kernel⟩⟩, fun h => absurd (by norm_num [exFewPing]) h⟩
    (by decide) (by decide) (by decide) true false (fuel := 5) (fuel' := 5) (by decide) (by decide)

/-- **C90 refuted** (to and fro between the speeds).  At three quarters of the speed a loop to and fro does not sound like its frames
written out: where it turns, the fraction is kept but counts the other way (src/ResamplingReader.h:265-278). -/
theorem C90_pingpong_refuted : ∃ a b : ArrayReader, a.rd.rate = 3 / 4 ∧ a.rd.loopType = .pingpong ∧ a.rd.loopStart = 0 ∧ a.rd.loopFinish = 4 ∧ a.src = some [10, 20, 30, 40] ∧
    b.rd.rate = 3 / 4 ∧ b.rd.loopType = .none ∧ b.src = some ((List.range 24).map fun j : Nat => ([10, 20, 30, 40] : List Int).getD ((bouncePath 0 0 4 1 j).getD 0) 0) ∧
    framesOf (a.read Fp.ieee 3 9) ≠ framesOf (b.read Fp.ieee 3 9) :=
  ⟨{ rd := { playing := true, nch := 1, fileSamples := 4, rate := 3 / 4, loopType := .pingpong, loopFinish := 4, fileSize := 8 }, src := some [10, 20, 30, 40] },
    { rd := { playing := true, nch := 1, fileSamples := 24, rate := 3 / 4, loopType := .none, loopFinish := 24, fileSize := 48 },
      src := some ((List.range 24).map fun j : Nat => ([10, 20, 30, 40] : List Int).getD ((bouncePath 0 0 4 1 j).getD 0) 0) },
    rfl, rfl, rfl, rfl, rfl, rfl, rfl, rfl, by decide +kernel⟩

end TVP
