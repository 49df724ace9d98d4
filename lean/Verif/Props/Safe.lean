import Verif.Lemmas.Safe
import Verif.Props.Config

/-!
# Properties C33, C44: playback stays inside the material and nothing overflows
-/

namespace TVP
open Spec

/-! ## C33 -/

/-- One call on a playing array reader. -/
inductive ArrayOp
  | read (n : Nat)
  | set (c : Cmd)

/-- The calls one after the other: all frames delivered and the final reader. -/
def runOps (fp : Fp) (fuel : Nat) : List ArrayOp → ArrayReader → M (List (List Int) × ArrayReader)
  | [], a => .ok ([], a)
  | .read n :: os, a => do
    let (f, a) ← a.read fp fuel n
    let (fs, a) ← runOps fp fuel os a
    return (f ++ fs, a)
  | .set c :: os, a => runOps fp fuel os { a with rd := c.run a.rd }

/-- Every setting call in the sequence is allowed at the moment it is made. -/
def OpsAllowed (fp : Fp) (fuel : Nat) (R T : Int) : List ArrayOp → ArrayReader → Prop
  | [], _ => True
  | .read n :: os, a => ∀ fs a', a.read fp fuel n = .ok (fs, a') → OpsAllowed fp fuel R T os a'
  | .set c :: os, a => c.Allowed false R T a.rd ∧ OpsAllowed fp fuel R T os { a with rd := c.run a.rd }

/-- An array reader playing `T` frames of the 16-bit samples `data`. -/
structure Playing (a : ArrayReader) (data : List Int) (R T : Int) : Prop where
  playing : a.rd.playing = true
  src : a.src = some data
  header : a.rd.header = 0
  room : T * a.rd.nch ≤ data.length
  words : ∀ v ∈ data, InI16 v
  going : Going false a.rd R T

theorem Playing.srcOk {a : ArrayReader} {data : List Int} {R T : Int} (h : Playing a data R T) :
    SrcOk arraySrc (· = some data) (fun i => 0 ≤ i ∧ i < data.length) := by
  apply (arraySrcIs data).ok
  intro i hi
  have hl : i.toNat < data.length := by omega
  simp only [List.getD_eq_getElem?_getD, List.getElem?_eq_getElem hl, Option.getD_some]
  exact h.words _ (List.getElem_mem hl)

theorem Playing.read {fp : Fp} (hfp : Representable fp) (fuel n : Nat) {a : ArrayReader} {data : List Int} {R T : Int}
    (h : Playing a data R T) :
    ∃ fs a', a.read fp (fuel + 2) n = .ok (fs, a') ∧ fs.length ≤ n ∧ (a.rd.loopType ≠ .none → fs.length = n) ∧
      (∀ f ∈ fs, (f.length : Int) = a.rd.nch ∧ ∀ v ∈ f, InI16 v) ∧ Playing a' data R T ∧ SameConf a.rd a'.rd := by
  obtain ⟨o, h1, _, h3, h4, h5, h6, h7, h8⟩ := h.going.read fp hfp h.srcOk fuel n h.playing (s := a.src) h.src
    (by
      intro i i0 i1
      have := h.room
      rw [h.header] at i0 i1
      simp only [margin, Bool.false_eq_true, if_false, zero_mul, add_zero, zero_add, sub_zero] at i0 i1
      omega)
  refine ⟨o.frames, ⟨o.r, o.s⟩, ?_, h3, h4, h5, ⟨?_, h7, ?_, ?_, h.words, h6⟩, h8⟩
  · unfold ArrayReader.read; rw [h1]; rfl
  · simp only [h8.playing, h.playing]
  · simp only [h8.header, h.header]
  · simp only [h8.nch]; exact h.room

/-- **C33** (partial).  From a reader playing inside the array, every history of reads, rate changes, loop and
interpolation settings and restarts that keeps the settings sensible is defined: no read leaves the array (or faults in any
other way), and all samples delivered are 16-bit samples.  `Cmd.Allowed` says what sensible means: loops that are not
empty, inside the array and at least as many frames long as there are channels (unless repeating forwards); linear
interpolation not below rate -1, nor in a ping-pong above 1; cubic interpolation up to rate 1 in magnitude and not in a
ping-pong; at most 8 channels with interpolation; turning round only while the position is inside the array.  Each of
these is needed: see the refutations below. -/
theorem C33_array_safe_partial {fp : Fp} (hfp : Representable fp) (fuel : Nat) (data : List Int) {R T : Int} :
    ∀ (os : List ArrayOp) (a : ArrayReader), Playing a data R T → OpsAllowed fp (fuel + 2) R T os a →
      ∃ fs a', runOps fp (fuel + 2) os a = .ok (fs, a') ∧ (∀ f ∈ fs, (f.length : Int) = a.rd.nch ∧ ∀ v ∈ f, InI16 v) ∧
        Playing a' data R T
  | [], a, h, _ => ⟨[], a, rfl, by simp, h⟩
  | .read n :: os, a, h, ho => by
    obtain ⟨f, a1, h1, _, _, h4, h5, h6⟩ := h.read hfp fuel n
    obtain ⟨fs, a', k1, k2, k3⟩ := C33_array_safe_partial hfp fuel data os a1 h5 (ho f a1 h1)
    refine ⟨f ++ fs, a', ?_, ?_, k3⟩
    · rw [runOps, h1]; simp only [ok_bind, k1]; rfl
    · intro x hx
      rcases List.mem_append.1 hx with hx | hx
      · exact h4 x hx
      · have := k2 x hx
        rw [h6.nch] at this
        exact this
  | .set c :: os, a, h, ho => by
    obtain ⟨e1, e2, e3⟩ := c.run_nch a.rd
    obtain ⟨fs, a', k1, k2, k3⟩ := C33_array_safe_partial hfp fuel data os { a with rd := c.run a.rd }
      ⟨e3 h.playing, h.src, by simp only [e2, h.header], by simp only [e1]; exact h.room, h.words, ho.1.going h.going⟩ ho.2
    refine ⟨fs, a', k1, ?_, k3⟩
    simp only [e1] at k2
    exact k2

/-- Where `playRaw` may start: in the material, on a frame boundary. -/
def StartInside (r : Rd) (F nch : Nat) : Prop :=
  match r.playStart with
  | .arbitrary => 0 ≤ r.playbackStart ∧ r.playbackStart < F
  | .sample => 0 ≤ r.rate ∨ (nch ∣ F ∧ nch ≤ F ∧ F < 2 ^ 30)
  | .loop => 0 ≤ r.rate ∨ nch ≤ F

/-- `playRaw(data, F, nch)` starts playback inside the array. -/
theorem C33_playRaw (a : ArrayReader) (data : List Int) {F nch : Nat} (hc : 1 ≤ nch) (hc' : nch ≤ 32767)
    (hlen : F * nch ≤ data.length) (hdata : ∀ v ∈ data, InI16 v) {R : Int} (hdual : a.rd.dual = false)
    (hR : |a.rd.rate| ≤ R) (hR30 : R ≤ 2 ^ 30) (hrem : a.rd.rem = 0) (hpts : PtsOk a.rd)
    (hi : a.rd.interp ≠ .none → nch ≤ 8 ∧ -1 ≤ a.rd.rate ∧ (a.rd.loopType = .pingpong → a.rd.rate ≤ 1) ∧
      (a.rd.interp = .quadratic → a.rd.rate ≤ 1 ∧ a.rd.loopType ≠ .pingpong))
    (hfit : (nch : Int) * (F + R + 5) ≤ 2147483647)
    (hl : a.rd.loopType ≠ .none → 0 < F ∧ ((a.rd.loopType = .repeat ∧ 0 ≤ a.rd.rate) ∨ nch ≤ F))
    (hst : StartInside a.rd F nch) : Playing (a.playRaw data F nch).2 data R F := by
  have hR0 : 0 ≤ R := by
    have : (0 : ℚ) ≤ R := le_trans (abs_nonneg _) hR
    exact_mod_cast this
  have hF31 : F < 2 ^ 31 := by
    have : (1 : Int) * (F + R + 5) ≤ nch * (F + R + 5) := mul_le_mul_of_nonneg_right (by omega) (by omega)
    omega
  obtain ⟨h1, h2, h3, h4, h5, h6, h7, h8, h9, h10, h11, h12, h13, h14, h15, h16, h17, h18⟩ :=
    playRaw_setup a data hc hc' hF31
  have hcf : (a.playRaw data F nch).2.rd.crossfade = 0 := rfl
  have hpt : PtsOk (a.playRaw data F nch).2.rd := by
    intro c
    have : (a.playRaw data F nch).2.rd.pts c = if c < 8 then { a.rd.pts c with n := 0 } else a.rd.pts c := by
      have e : ∀ (r : Rd) (n : Int), (r.setNumChannels n).pts = r.pts := by
        intro r n; unfold Rd.setNumChannels; split <;> rfl
      simp only [ArrayReader.playRaw, Rd.reset, e, Rd.stop]
    rw [this]
    split
    · exact hpts c
    · exact hpts c
  generalize (a.playRaw data F nch).2 = b at *
  have hz : Setup false b.rd R F := by
    refine ⟨by rw [h13, hdual], by rw [h4]; omega, by rw [h8]; exact hR, hR30, by rw [h3], ?_, by rw [h3, h4, zero_add]; exact hfit,
      by rw [h5]; omega, by rw [h5], by rw [h6], by rw [h6]; omega, by rw [h7]; omega, by rw [h7], ?_⟩
    · simp only [Reaches, Bool.false_eq_true, if_false, InterpOk]
      rw [h14, h4, h8, h10, h9, hrem]
      cases hx : a.rd.interp with
      | none => trivial
      | linear =>
        obtain ⟨i1, i2, i3, _⟩ := hi (by rw [hx]; simp)
        exact ⟨by omega, i2, i3⟩
      | quadratic =>
        obtain ⟨i1, i2, i3, i4⟩ := hi (by rw [hx]; simp)
        obtain ⟨i5, i6⟩ := i4 hx
        exact ⟨by omega, abs_le.2 ⟨i2, i5⟩, i6, fun _ => le_refl _, fun _ => le_refl _⟩
    · rw [h10, h6, h7, h4, h8]
      intro k
      obtain ⟨k1, k2⟩ := hl k
      refine ⟨by omega, ?_⟩
      rcases k2 with k2 | k2
      · exact Or.inl k2
      · exact Or.inr (by omega)
  have hpo : ∀ x, 0 ≤ x → x ≤ (F : Int) → b.rd.posOf x = 0 + x * nch := by
    intro x x0 x1
    have f := frame_fits (H := 0) (le_refl _) (show (0 : Int) ≤ nch by omega) x0 (show x ≤ F + R + 5 by omega) (by rw [zero_add]; exact hfit)
    rw [← h3, ← h4] at f ⊢
    exact posOf_eq ⟨by rw [h3] at *; omega, f.2⟩
  have hpos : ∃ q : Int, b.rd.pos1 = 0 + q * nch ∧ 0 ≤ q ∧ (q ≤ F) ∧ (a.rd.rate < 0 → q < F) := by
    rw [h18]
    unfold StartInside at hst
    by_cases h0 : a.rd.rate ≥ 0
    · rw [if_pos h0]
      cases hs : a.rd.playStart with
      | sample => exact ⟨0, hpo 0 (by omega) (by omega), by omega, by omega, fun k => absurd k (not_lt.2 h0)⟩
      | loop => exact ⟨0, hpo 0 (by omega) (by omega), by omega, by omega, fun k => absurd k (not_lt.2 h0)⟩
      | arbitrary =>
        rw [hs] at hst
        simp only at hst
        exact ⟨_, hpo _ hst.1 (by omega), hst.1, by omega, fun _ => hst.2⟩
    · rw [if_neg h0]
      cases hs : a.rd.playStart with
      | sample =>
        rw [hs] at hst
        simp only at hst
        rcases hst with hst | ⟨⟨k, hk⟩, hle, h30⟩
        · exact absurd hst h0
        · have hk1 : 1 ≤ k := by
            by_contra hc
            have : k = 0 := by omega
            rw [this] at hk; omega
          refine ⟨(k : Int) - 1, ?_, by omega, ?_, fun _ => ?_⟩
          · simp only [h17]
            have e1 : i32 (2 * (F : Int)) = 2 * F := by unfold i32; omega
            rw [e1, Int.mul_tdiv_cancel_left _ (by norm_num)]
            have e2 : i32 ((F : Int) - nch) = F - nch := by unfold i32; omega
            rw [e2, hk]; push_cast; ring
          · have : k ≤ F := by rw [hk]; exact Nat.le_mul_of_pos_left k (by omega)
            omega
          · have : k ≤ F := by rw [hk]; exact Nat.le_mul_of_pos_left k (by omega)
            omega
      | loop =>
        rw [hs] at hst
        simp only at hst
        rcases hst with hst | hst
        · exact absurd hst h0
        · exact ⟨(F : Int) - nch, hpo _ (by omega) (by omega), by omega, by omega, fun _ => by omega⟩
      | arbitrary =>
        rw [hs] at hst
        simp only at hst
        exact ⟨_, hpo _ hst.1 (by omega), hst.1, by omega, fun _ => hst.2⟩
  obtain ⟨q, q1, q2, q3, q4⟩ := hpos
  refine ⟨h2, h1, h3, by rw [h4]; exact_mod_cast hlen, hdata, hz, hpt, q, hz.dual, h15, hz.nch, hz.rateR, hz.R30, ?_, ?_, ?_, hz.header0, ?_, ?_,
    hz.interp, hz.fits, fun _ => ⟨hz.F0, hz.FT⟩, hz.A0, hz.AT, fun k => ⟨(hz.loop k).1, hz.ET, (hz.loop k).2⟩, ?_, ?_⟩
  · rw [h9, hrem]; exact ⟨0, 0, by norm_num, by norm_num, by norm_num⟩
  · rw [h9, hrem]; norm_num
  · rw [q1, h3, h4]
  · rw [hcf]
  · rw [hcf]; norm_num
  · intro _; omega
  · intro k
    rw [h8] at k
    have := q4 k
    omega

/-- A fresh reader with linear interpolation at three quarters speed, repeating. -/
def exLin : ArrayReader := { rd := { rate := 3 / 4, interp := .linear, loopType := .repeat } }

theorem exLin_playing : Playing (exLin.playRaw [10, -10, 20, -20, 30, -30] (3 : Nat) (2 : Nat)).2 [10, -10, 20, -20, 30, -30] 4 (3 : Nat) :=
  C33_playRaw exLin _ (by norm_num) (by norm_num) (by simp) (by decide) rfl (by norm_num [exLin, abs_of_pos]) (by norm_num) rfl
    (fun _ => (by decide : InI16 0 ∧ InI16 0 ∧ InI16 0 ∧ InI16 0)) (fun _ => ⟨by norm_num, by norm_num [exLin], by simp [exLin], by simp [exLin]⟩) (by norm_num)
    (fun _ => ⟨by norm_num, Or.inr (by norm_num)⟩) (Or.inl (by norm_num [exLin]))

example : framesOf (runOps Fp.ieee 2 [.read 4, .set (.interp .none), .set (.loopStart 1), .read 3]
    (exLin.playRaw [10, -10, 20, -20, 30, -30] 3 2).2) =
    .ok [[0, 0], [10, -10], [15, -15], [22, -22], [20, -20], [20, -20], [30, -30]] := by decide +kernel

/-- The hypotheses of `C33_array_safe_partial` on a history with two reads and two settings in between. -/
example : ∃ fs a', runOps Fp.ieee 2 [.read 4, .set (.interp .none), .set (.loopStart 1), .read 3]
      (exLin.playRaw [10, -10, 20, -20, 30, -30] (3 : Nat) (2 : Nat)).2 = .ok (fs, a') ∧
      (∀ f ∈ fs, (f.length : Int) = 2 ∧ ∀ v ∈ f, InI16 v) ∧ Playing a' [10, -10, 20, -20, 30, -30] 4 (3 : Nat) :=
  C33_array_safe_partial ieee_representable 0 _ _ _ exLin_playing (by
    intro fs a' h
    obtain ⟨fs2, a2, h2, _, _, _, h3, h4⟩ := exLin_playing.read ieee_representable 0 4
    rw [h2] at h
    cases h
    obtain ⟨z, _, q, hw⟩ := h3.going
    have e1 : a'.rd.nch = 2 := h4.nch
    have e2 : a'.rd.loopType = .repeat := h4.loopType
    have e3 : a'.rd.loopStart = 0 := h4.loopStart
    have e4 : a'.rd.loopFinish = 3 := h4.loopFinish
    refine ⟨⟨⟨z.dual, z.nch, z.rateR, z.R30, z.header0, ?_, z.fits, z.F0, z.FT, z.A0, z.AT, z.E0, z.ET, z.loop⟩, trivial⟩,
      ⟨⟨z.dual, z.nch, z.rateR, z.R30, z.header0, ?_, z.fits, z.F0, z.FT, (by decide : (0 : Int) ≤ i32 1), (by decide : i32 1 ≤ (3 : Nat)), z.E0, z.ET, ?_⟩, trivial⟩, fun _ _ _ => trivial⟩
    · trivial
    · trivial
    · intro _
      refine ⟨?_, Or.inr ?_⟩
      · show i32 1 < a'.rd.loopFinish
        rw [e4]; decide
      · show i32 1 ≤ a'.rd.loopFinish - a'.rd.nch
        rw [e4, e1]; decide)

/-- **C33** is false without the side conditions of `C33_array_safe_partial`.  Turning round after the end was reached
reads the sample after the array. -/
theorem C33_refuted_turn : framesOf (runOps Fp.ieee 2 [.read 4, .set (.rate (-1)), .read 1]
    (({} : ArrayReader).playRaw [1, 2, 3, 4] 4 1).2) = .error .outOfBounds := by decide +kernel

/-- Cubic interpolation in a ping-pong loop at a fractional rate below 1 leaves the array at a turning point. -/
theorem C33_refuted_cubic_pingpong : framesOf (runOps Fp.ieee 2 [.read 20]
    (({ rd := { rate := 3 / 4, interp := .quadratic, loopType := .pingpong } } : ArrayReader).playRaw [1, 2, 3, 4] 4 1).2) =
    .error .outOfBounds := by decide +kernel

/-- Cubic interpolation at rate 2 reads before the array at once. -/
theorem C33_refuted_cubic_fast : framesOf (runOps Fp.ieee 2 [.read 20]
    (({ rd := { rate := 2, interp := .quadratic } } : ArrayReader).playRaw [1, 2, 3, 4] 4 1).2) =
    .error .outOfBounds := by decide +kernel

/-- Linear interpolation below rate -1: repeating a single frame backwards reads the sample after the array. -/
theorem C33_refuted_linear_fast_reverse : framesOf (runOps Fp.ieee 2 [.read 2]
    (({ rd := { rate := -3 / 2, interp := .linear, loopType := .repeat } } : ArrayReader).playRaw [7] 1 1).2) =
    .error .outOfBounds := by decide +kernel

/-- Interpolation with more than 8 channels leaves the arrays of interpolation points. -/
theorem C33_refuted_nine_channels : framesOf (runOps Fp.ieee 2 [.read 1]
    (({ rd := { interp := .linear } } : ArrayReader).playRaw [1, 2, 3, 4, 5, 6, 7, 8, 9] 1 9).2) =
    .error .outOfBounds := by decide +kernel

/-- The dual head at rate 2 with an odd fade length reads the frame after the array; ping-pong with a dual head does so
at any rate. -/
theorem C33_refuted_dual : framesOf (runOps Fp.ieee 2 [.read 10]
      (({ rd := { rate := 2, dual := true, cfDur := 1, loopType := .repeat } } : ArrayReader).playRaw [1, 2, 3, 4] 4 1).2) =
      .error .outOfBounds ∧
    framesOf (runOps Fp.ieee 2 [.read 10]
      (({ rd := { dual := true, cfDur := 1, loopType := .pingpong } } : ArrayReader).playRaw [1, 2, 3, 4] 4 1).2) =
      .error .outOfBounds := by decide +kernel

/-! ## C44 -/

/-- A cached file serves every index, hit or miss. -/
theorem fileSrcOk (g : Geo) (nullOk : Bool) : SrcOk (fileSrc g nullOk) (fun s => s.isSome = true) (fun _ => True) := by
  intro s i hs _
  obtain ⟨c, rfl⟩ := Option.isSome_iff_exists.1 hs
  refine ⟨(c.get g i).1, some (c.get g i).2, rfl, rfl, ?_⟩
  unfold Cache.get
  split
  · unfold sampleAt i16 InI16; simp only; omega
  · unfold InI16; simp only; omega

/-- One event in the life of a playing file reader: a call of `read`, a setting, or any change of the cache (reloading in
the background, being told about loop points). -/
inductive FileOp
  | read (n : Nat)
  | set (c : Cmd)
  | cache (c : Cache)

/-- The events one after the other. -/
def runFileOps (fp : Fp) (g : Geo) (nullOk : Bool) (fuel : Nat) : List FileOp → FileReader → M (List (List Int) × FileReader)
  | [], a => .ok ([], a)
  | .read n :: os, a => do
    let (f, a) ← a.read fp g nullOk fuel n
    let (fs, a) ← runFileOps fp g nullOk fuel os a
    return (f ++ fs, a)
  | .set c :: os, a => runFileOps fp g nullOk fuel os { a with rd := c.run a.rd }
  | .cache c :: os, a => runFileOps fp g nullOk fuel os { a with src := some c }

/-- Every setting call in the sequence is allowed at the moment it is made. -/
def FileOpsAllowed (fp : Fp) (g : Geo) (nullOk : Bool) (fuel : Nat) (R T : Int) : List FileOp → FileReader → Prop
  | [], _ => True
  | .read n :: os, a => ∀ fs a', a.read fp g nullOk fuel n = .ok (fs, a') → FileOpsAllowed fp g nullOk fuel R T os a'
  | .set c :: os, a => c.Allowed true R T a.rd ∧ FileOpsAllowed fp g nullOk fuel R T os { a with rd := c.run a.rd }
  | .cache c :: os, a => FileOpsAllowed fp g nullOk fuel R T os { a with src := some c }

/-- **C44** (partial: single playback head; `C44_dual_partial` is about two).  A file reader playing `T` frames, with every position up to a rate
beyond the material below `2^31`: every history of reads, settings and cache changes is defined, so no integer operation
overflows, no conversion is out of range, and `read` returns.  Any rate up to `2^30` in magnitude, any interpolation
(with at most 8 channels), any non-empty loop in the material at least as many frames long as there are channels (or
repeating forwards). -/
theorem C44_file_partial {fp : Fp} (hfp : Representable fp) (g : Geo) (nullOk : Bool) (fuel : Nat) {R T : Int} :
    ∀ (os : List FileOp) (a : FileReader), a.rd.playing = true → a.src.isSome = true → Going true a.rd R T →
      FileOpsAllowed fp g nullOk (fuel + 2) R T os a →
      ∃ fs a', runFileOps fp g nullOk (fuel + 2) os a = .ok (fs, a') ∧
        (∀ f ∈ fs, (f.length : Int) = a.rd.nch ∧ ∀ v ∈ f, InI16 v) ∧ Going true a'.rd R T
  | [], a, _, _, h, _ => ⟨[], a, rfl, by simp, h⟩
  | .read n :: os, a, hp, hs, h, ho => by
    obtain ⟨o, h1, _, h3, h4, h5, h6, h7, h8⟩ := h.read fp hfp (fileSrcOk g nullOk) fuel n hp hs (fun _ _ _ => trivial)
    have hr : a.read fp g nullOk (fuel + 2) n = .ok (o.frames, ⟨o.r, o.s⟩) := by
      unfold FileReader.read; rw [h1]; rfl
    obtain ⟨fs, a', k1, k2, k3⟩ := C44_file_partial hfp g nullOk fuel os ⟨o.r, o.s⟩ (by simp only [h8.playing, hp]) h7 h6 (ho _ _ hr)
    refine ⟨o.frames ++ fs, a', ?_, ?_, k3⟩
    · rw [runFileOps, hr]; simp only [ok_bind, k1]; rfl
    · intro x hx
      rcases List.mem_append.1 hx with hx | hx
      · exact h5 x hx
      · have := k2 x hx
        simp only [h8.nch] at this
        exact this
  | .set c :: os, a, hp, hs, h, ho => by
    obtain ⟨e1, e2, e3⟩ := c.run_nch a.rd
    obtain ⟨fs, a', k1, k2, k3⟩ := C44_file_partial hfp g nullOk fuel os { a with rd := c.run a.rd } (e3 hp) hs (ho.1.going h) ho.2
    refine ⟨fs, a', k1, ?_, k3⟩
    simp only [e1] at k2
    exact k2
  | .cache c :: os, a, hp, hs, h, ho => C44_file_partial hfp g nullOk fuel os { a with src := some c } hp rfl h ho

/-- A stereo WAV file half way through its 1000 frames, at 2.5 times the speed. -/
def exFileRd : Rd := { playing := true, rate := 5 / 2, nch := 2, header := 22, fileSamples := 1000, loopFinish := 1000,
                       interp := .linear, loopType := .pingpong, pos1 := 22 + 500 * 2 }

theorem exFileRd_going : Going true exFileRd 3 1000 := by
  have z : Setup true exFileRd 3 1000 := ⟨rfl, by decide, by norm_num [exFileRd, abs_of_pos], by norm_num, by decide,
    fun _ => by decide, by decide, by decide, by decide, by decide, by decide, by decide, by decide, fun _ => ⟨by decide, Or.inr (by decide)⟩⟩
  exact ⟨z, fun _ => (by decide : InI16 0 ∧ InI16 0 ∧ InI16 0 ∧ InI16 0), 500, rfl, rfl, z.nch, z.rateR, z.R30,
    ⟨0, 0, by norm_num, by norm_num, by norm_num [exFileRd]⟩, by norm_num [exFileRd], by decide, z.header0, by norm_num [exFileRd],
    by norm_num [exFileRd], z.interp, z.fits, fun _ => ⟨z.F0, z.FT⟩, z.A0, z.AT, fun k => ⟨(z.loop k).1, z.ET, (z.loop k).2⟩,
    fun _ => ⟨by norm_num, by norm_num⟩, fun k => absurd k (by norm_num [exFileRd])⟩

example (g : Geo) (c c' : Cache) : ∃ fs a', runFileOps Fp.ieee g true 2 [.read 128, .cache c', .read 128] ⟨exFileRd, some c⟩ = .ok (fs, a') ∧
    (∀ f ∈ fs, (f.length : Int) = 2 ∧ ∀ v ∈ f, InI16 v) ∧ Going true a'.rd 3 1000 :=
  C44_file_partial ieee_representable g true 0 _ _ rfl rfl exFileRd_going (fun _ _ _ _ _ _ => trivial)

/-- **C44** (partial: two playback heads, while no setting is changed).  From a reader with the dual head enabled at a
position within `[Lo, Hi]` (`Dual` says how these relate to loop, fade length and rate), every sequence of calls of `read`
on a file is defined and delivers all frames, whatever happens to the cache in between. -/
theorem C44_dual_partial {fp : Fp} (hfp : Representable fp) (g : Geo) (nullOk : Bool) (fuel : Nat) {R Lo Hi : Int} :
    ∀ (os : List (Nat × Cache)) (a : FileReader) (q1 q2 : Int), a.rd.playing = true → a.src.isSome = true →
      Dual a.rd R Lo Hi q1 q2 → PtsOk a.rd →
      ∃ fs a', runFileOps fp g nullOk (fuel + 2) (os.flatMap fun x => [.read x.1, .cache x.2]) a = .ok (fs, a') ∧
        fs.length = (os.map Prod.fst).sum ∧ (∀ f ∈ fs, (f.length : Int) = a.rd.nch ∧ ∀ v ∈ f, InI16 v)
  | [], a, _, _, _, _, _, _ => ⟨[], a, rfl, rfl, by simp⟩
  | (n, c) :: os, a, q1, q2, hp, hs, h, hpt => by
    have hn := h.nch
    obtain ⟨f, r', p1, p2, s', e1, e2, e3, e4, e5, e6, e7⟩ := dual_total fp hfp (fileSrcOk g nullOk) (fuel + 1) n a.rd q1 q2 a.src h hpt hs
      (fun _ _ _ => trivial)
    have hr : a.read fp g nullOk (fuel + 2) n = .ok (f, ⟨r', s'⟩) := by
      unfold FileReader.read Rd.read
      rw [if_neg (by simp [hp]), if_neg (by omega), if_neg (by omega), e1]; rfl
    obtain ⟨fs, a', k1, k2, k3⟩ := C44_dual_partial hfp g nullOk fuel os ⟨r', some c⟩ p1 p2 (by simp only [e7.playing, hp]) rfl e4 e5
    refine ⟨f ++ fs, a', ?_, by simp [e2, k2], ?_⟩
    · simp only [List.flatMap_cons, List.cons_append, List.nil_append, runFileOps, hr, ok_bind, k1]; rfl
    · intro x hx
      rcases List.mem_append.1 hx with hx | hx
      · exact e3 x hx
      · have := k3 x hx
        simp only [e7.nch] at this
        exact this

/-- A dual-head reader of a stereo file in a ping-pong loop with a fade over 10 frames. -/
def exDualRd : Rd := { playing := true, rate := -3 / 2, nch := 2, header := 22, fileSamples := 1000, loopStart := 100, loopFinish := 900,
                       dual := true, cfDur := 10, interp := .quadratic, loopType := .pingpong, pos1 := 22 + 500 * 2 }

theorem exDualRd_dual : Dual exDualRd 2 97 903 500 0 :=
  ⟨rfl, by decide, fun _ => by decide, by decide, by norm_num [exDualRd, abs_of_neg, abs_of_pos], by norm_num [exDualRd], by norm_num,
    ⟨0, 0, by norm_num, by norm_num, by norm_num [exDualRd]⟩, by norm_num [exDualRd], by decide, by decide, by decide, by decide, by decide,
    by decide, by decide, by decide, by decide, by decide, fun h => (by cases h), by norm_num [exDualRd], by norm_num [exDualRd],
    fun _ => (by decide), fun h => (by cases h), fun h => (by cases h)⟩

example (g : Geo) (c c1 c2 : Cache) : ∃ fs a', runFileOps Fp.ieee g true 2 [.read 128, .cache c1, .read 100, .cache c2] ⟨exDualRd, some c⟩ = .ok (fs, a') ∧
    fs.length = 228 ∧ ∀ f ∈ fs, (f.length : Int) = 2 ∧ ∀ v ∈ f, InI16 v :=
  C44_dual_partial ieee_representable g true 0 [(128, c1), (100, c2)] _ 500 0 rfl rfl exDualRd_dual
    (fun _ => (by decide : InI16 0 ∧ InI16 0 ∧ InI16 0 ∧ InI16 0))

/-- Without the bound on the rate a conversion is out of range: rate `2^31`. -/
theorem C44_rate_bound_needed : framesOf (runOps Fp.ieee 2 [.read 1]
    (({ rd := { rate := 2147483648 } } : ArrayReader).playRaw [1, 2, 3, 4] 4 1).2) = .error .badCast := by decide +kernel

end TVP
