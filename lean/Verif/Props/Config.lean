import Verif.Spec.Config
import Verif.Lemmas.Replay
import Verif.Lemmas.SrcInv
import Verif.Props.Loops
import Verif.Props.Play

/-!
# Properties C35, C37-C41: starting, replaying and configuring
-/

namespace TVP
open Spec

/-! ## C35 -/

theorem readLoop_dual_full {fp : Fp} {σ} {S : Src σ} {fuel : Nat} : ∀ {n : Nat} {r : Rd} {s : σ} {o : ReadOut σ},
    r.dual = true → readLoop fp S fuel n r s = .ok o → o.frames.length = n
  | 0, r, s, o, _, h => by unfold readLoop at h; cases h; rfl
  | n + 1, r, s, o, hd, h => by
    rw [readLoop_succ] at h
    obtain ⟨r1, h1, h⟩ := bind_ok_iff.1 h
    rw [if_pos hd] at h1
    have c1 := updateCrossfade_conf h1
    obtain ⟨⟨vs, ok, r2, s2⟩, h2, h⟩ := bind_ok_iff.1 h
    obtain ⟨c2, hcase⟩ := readFrame_cases h2
    have hd1 : r1.dual = true := by rw [c1.dual]; exact hd
    have hok : ok = true := by
      rcases hcase with ⟨e, _⟩ | ⟨_, _, e, _⟩
      · exact e
      · exfalso
        unfold Rd.atEnd at e
        rw [hd1] at e
        simp at e
    simp only [hok, if_true] at h
    obtain ⟨r3, h3, h⟩ := bind_ok_iff.1 h
    obtain ⟨o2, h4, h⟩ := bind_ok_iff.1 h
    cases h
    have := readLoop_dual_full (by rw [(stepOn_conf h3).dual, c2.dual]; exact hd1) h4
    simp only [List.length_cons, this]

/-- **C35** With the dual playback head enabled, a playing reader delivers exactly the `n` frames asked for, whatever the
loop type, interpolation, rate and source. -/
theorem C35_never_dry (fp : Fp) {σ} (S : Src σ) (fuel n : Nat) (r : Rd) (s : σ) (o : ReadOut σ)
    (hd : r.dual = true) (hp : r.playing = true) (h : r.read fp S fuel s n = .ok o) :
    o.frames.length = n := by
  unfold Rd.read at h
  rw [if_neg (by simp [hp])] at h
  split at h
  · cases h
  · split at h
    · split at h
      · cases h; simp_all
      · cases h
    · exact readLoop_dual_full hd h

/-- A dual-head reader playing a loop of six frames with a fade over two. -/
def exDual : ArrayReader :=
  (({ rd := { dual := true, cfDur := 2, loopType := .repeat } } : ArrayReader).playRaw [10, 20, 30, 40, 50, 60] 6 1).2

example : framesOf (exDual.read Fp.ieee 2 9) = .ok [[10], [20], [30], [40], [50], [40], [30], [40], [50]] := by
  decide +kernel

example (o : ReadOut (Option (List Int))) (h : exDual.rd.read Fp.ieee arraySrc 2 exDual.src 9 = .ok o) :
    o.frames.length = 9 := C35_never_dry _ _ _ _ _ _ o rfl rfl h

/-! ## C37 -/

/-- Reverse starts that are right: from a user position; from the end of material that ends the file; from the end of a
mono loop. -/
def ReverseOk (r : Rd) : Prop :=
  r.playStart = .arbitrary ∨ (r.playStart = .sample ∧ r.fileSize = 2 * (r.header + r.fileSamples * r.nch)) ∨
    (r.playStart = .loop ∧ r.nch = 1)

/-- The position `reset` leaves the reader at. -/
theorem reset_start (r : Rd) (hdir : 0 ≤ r.rate ∨ ReverseOk r)
    (hfit : InI32 (r.header + startFrame r.playStart (decide (0 ≤ r.rate)) r.fileSamples r.loopStart r.loopFinish
      r.playbackStart * r.nch)) :
    r.reset.pos1 = r.header + startFrame r.playStart (decide (0 ≤ r.rate)) r.fileSamples r.loopStart r.loopFinish
      r.playbackStart * r.nch := by
  have hpo : ∀ x, InI32 (r.header + x * r.nch) → r.posOf x = r.header + x * r.nch := fun x h => posOf_eq h
  have hpo' : ∀ p x, ({ r with pts := p } : Rd).posOf x = r.posOf x := fun _ _ => rfl
  unfold Rd.reset startFrame at *
  simp only [ge_iff_le, hpo']
  by_cases h0 : 0 ≤ r.rate
  · simp only [h0, if_true, decide_true] at hfit ⊢
    cases hs : r.playStart <;> simp only [hs] at hfit ⊢ <;> exact hpo _ hfit
  · simp only [h0, if_false, decide_false, Bool.false_eq_true] at hfit ⊢
    have hd : ReverseOk r := by
      rcases hdir with h | h
      · exact absurd h h0
      · exact h
    rcases hd with hs | ⟨hs, he⟩ | ⟨hs, hn⟩
    · simp only [hs] at hfit ⊢; exact hpo _ hfit
    · simp only [hs] at hfit ⊢
      rw [he, Int.mul_tdiv_cancel_left _ (by norm_num)]
      have e : r.header + r.fileSamples * r.nch - r.nch = r.header + (r.fileSamples - 1) * r.nch := by ring
      rw [e]; exact i32_of_in hfit
    · simp only [hs] at hfit ⊢
      rw [hn] at hfit ⊢
      rw [← hn, hpo _ (by rw [hn]; exact hfit), hn]

/-- **C37** (partial).  `play()` leaves the reader playing at the documented start frame, in either direction, for every
start mode.  Not covered, because false (`C37_refuted_array`, `C37_refuted_loop`): reverse from the end of an array (or of
a file with something after the data) that is not mono, and reverse from the end of a loop that is not mono. -/
theorem C37_play_start_partial (r : Rd) (hdir : 0 ≤ r.rate ∨ ReverseOk r)
    (hfit : InI32 (r.header + startFrame r.playStart (decide (0 ≤ r.rate)) r.fileSamples r.loopStart r.loopFinish
      r.playbackStart * r.nch)) :
    r.play.playing = true ∧
    r.play.pos1 = r.header + startFrame r.playStart (decide (0 ≤ r.rate)) r.fileSamples r.loopStart r.loopFinish
      r.playbackStart * r.nch :=
  ⟨rfl, reset_start r.stop hdir hfit⟩

example : ({ rate := -2, nch := 2, header := 22, fileSamples := 10, fileSize := 84 } : Rd).play.pos1 = 22 + 9 * 2 :=
  (C37_play_start_partial _ (Or.inr (Or.inr (Or.inl ⟨rfl, by norm_num⟩))) (by norm_num [startFrame, InI32])).2.trans
    (by norm_num [startFrame])

/-- **C37** (partial) for `playRaw(array, length, channels)`: the same, for arrays (where a whole-file reverse start is
right only for mono). -/
theorem C37_playRaw_start_partial (a : ArrayReader) (data : List Int) {F nch : Nat} (h1 : 1 ≤ nch) (h2 : nch ≤ 32767)
    (hF : F < 2 ^ 30) (hdir : 0 ≤ a.rd.rate ∨ a.rd.playStart = .arbitrary ∨ nch = 1)
    (hfit : InI32 (startFrame a.rd.playStart (decide (0 ≤ a.rd.rate)) F 0 F a.rd.playbackStart * nch)) :
    (a.playRaw data F nch).1 = true ∧ (a.playRaw data F nch).2.rd.playing = true ∧
    (a.playRaw data F nch).2.rd.pos1 =
      startFrame a.rd.playStart (decide (0 ≤ a.rd.rate)) F 0 F a.rd.playbackStart * nch := by
  obtain ⟨k1, k2, k3, k4, k5, k6, k7, k8, k9, k10, k11, k12, k13, k14, k15, k16, k17, k18⟩ :=
    playRaw_setup a data h1 h2 (show F < 2 ^ 31 by omega)
  refine ⟨rfl, k2, ?_⟩
  have hfs : (a.playRaw data F nch).2.rd.fileSize = 2 * F := by rw [k17]; unfold i32; omega
  have hr := reset_start (a.playRaw data F nch).2.rd
    (by
      rw [k8]
      rcases hdir with h | h | h
      · exact Or.inl h
      · exact Or.inr (Or.inl (by rw [k11]; exact h))
      · right
        unfold ReverseOk
        rw [k11, k3, k5, k4, hfs, h]
        cases a.rd.playStart <;> simp)
    (by rw [k3, k4, k5, k6, k7, k8, k11, k12, zero_add]; exact hfit)
  rw [k3, k4, k5, k6, k7, k8, k11, k12, zero_add] at hr
  obtain ⟨q, hq⟩ : ∃ q : Rd, (a.playRaw data F nch).2.rd = { q.reset with playing := true } := ⟨_, rfl⟩
  rw [← hr, hq]
  rfl

example : (({ rd := { rate := -1 } } : ArrayReader).playRaw [7, 8, 9] (3 : Nat) (1 : Nat)).2.rd.pos1 = 2 :=
  (C37_playRaw_start_partial _ _ (F := 3) (nch := 1) (by norm_num) (by norm_num) (by norm_num) (Or.inr (Or.inr rfl))
    (by norm_num [startFrame, InI32])).2.2.trans (by norm_num [startFrame])

/-- **C37** for files: whenever `playFile` (raw or WAV) reports success the reader is playing and positioned at the
documented start frame of the material found in the file. -/
theorem C37_playFile_start_partial (g : Geo) (a a' : FileReader) (file : Option Dev) (junk : List Nat) (isWave : Bool)
    (nchRaw : Int) (h : a.playFile g file junk isWave nchRaw = .ok (true, a')) (hdir : 0 ≤ a'.rd.rate ∨ ReverseOk a'.rd)
    (hfit : InI32 (a'.rd.header + startFrame a'.rd.playStart (decide (0 ≤ a'.rd.rate)) a'.rd.fileSamples a'.rd.loopStart
      a'.rd.loopFinish a'.rd.playbackStart * a'.rd.nch)) :
    a'.rd.playing = true ∧
    a'.rd.pos1 = a'.rd.header + startFrame a'.rd.playStart (decide (0 ≤ a'.rd.rate)) a'.rd.fileSamples a'.rd.loopStart
      a'.rd.loopFinish a'.rd.playbackStart * a'.rd.nch := by
  have key : ∀ r f, playFinish g r f = .ok (true, a') → ∃ q : Rd, a'.rd = { q.reset with playing := true } := by
    intro r f h
    unfold playFinish at h
    split at h
    · cases h
    · split at h
      · cases h
      · cases h; exact ⟨_, rfl⟩
  have : ∃ q : Rd, a'.rd = { q.reset with playing := true } := by
    unfold FileReader.playFile at h
    simp only at h
    cases file with
    | none => cases h
    | some f =>
      simp only at h
      split at h
      · obtain ⟨⟨ok, r, f'⟩, h1, h⟩ := bind_ok_iff.1 h
        simp only at h
        split at h
        · cases h
        · exact key _ _ h
      · exact key _ _ h
  obtain ⟨q, hq⟩ := this
  refine ⟨by rw [hq], ?_⟩
  have hr := reset_start a'.rd hdir hfit
  rw [← hr, hq]
  rfl

example (a' : FileReader) (h : ({ } : FileReader).playWav ⟨11, 7, fun _ => []⟩ (some ⟨exWav, 0, false⟩) (List.replicate 36 7)
    = .ok (true, a')) (h1 : a'.rd.rate = 1) (h2 : a'.rd.playStart = .sample) (h3 : a'.rd.header = 28) :
    a'.rd.pos1 = 28 := by
  have := (C37_playFile_start_partial _ _ _ _ _ _ _ h (Or.inl (by rw [h1]; norm_num))
    (by rw [h1, h2, h3]; norm_num [startFrame, InI32])).2
  rw [h1, h2, h3] at this
  simpa [startFrame] using this

/-- **C37 refuted**: reverse playback of a stereo array does not start at its last frame (nor at a frame at all). -/
theorem C37_refuted_array : ∃ (a : ArrayReader) (data : List Int), a.rd.playStart = .sample ∧ a.rd.rate < 0 ∧
    data.length = 3 * 2 ∧ (a.playRaw data 3 2).2.rd.pos1 = 1 ∧ (a.playRaw data 3 2).2.rd.pos1 ≠ (3 - 1) * 2 :=
  ⟨{ rd := { rate := -1 } }, [10, -10, 20, -20, 30, -30], rfl, by norm_num, rfl, by decide +kernel, by decide +kernel⟩

/-- **C37 refuted**: reverse playback from the loop end of a stereo loop of three frames starts at the second frame. -/
theorem C37_refuted_loop : ∃ (a : ArrayReader) (data : List Int), a.rd.playStart = .loop ∧ a.rd.rate < 0 ∧
    data.length = 3 * 2 ∧ (a.playRaw data 3 2).2.rd.loopFinish = 3 ∧ (a.playRaw data 3 2).2.rd.pos1 = 1 * 2 :=
  ⟨{ rd := { rate := -1, playStart := .loop } }, [10, -10, 20, -20, 30, -30], rfl, by norm_num, rfl, by decide +kernel,
    by decide +kernel⟩

/-! ## C38 -/

/-- **C38** (partial).  If neither the fractional position nor the direction has changed since the first `play()`, and
interpolation is off or cubic, then `play()` again gives the same outcome (frames or fault) for every sequence of reads.
The hypotheses are needed: see `C38_refuted_remainder`, `C38_refuted_linear`, `C38_refuted_pingpong`. -/
theorem C38_same_again_partial (fp : Fp) (fuel : Nat) (a b : ArrayReader) (ns0 : List Nat) (fs : List (List Int))
    (hi : a.rd.interp ≠ .linear) (h0 : readAll fp fuel ns0 a.play = .ok (fs, b)) (hrem : b.rd.rem = a.rd.rem)
    (hrate : b.rd.rate = a.rd.rate) (ns : List Nat) :
    framesOf (readAll fp fuel ns b.play) = framesOf (readAll fp fuel ns a.play) := by
  obtain ⟨hc, hs⟩ := readAll_conf h0
  have hsim : PSim a.play.rd b.play.rd := by
    obtain ⟨c1, c2, c3, c4, c5, c6, c7, c8, c9, c10, c11, c12, c13, c14⟩ := hc
    obtain ⟨br, bs⟩ := b
    cases br
    simp only [ArrayReader.play, Rd.play, Rd.reset, Rd.stop] at c1 c2 c3 c4 c5 c6 c7 c8 c9 c10 c11 c12 c13 c14 hrem hrate ⊢
    subst c1 c2 c3 c4 c5 c6 c7 c8 c9 c10 c11 c12 c13 c14 hrem hrate
    refine ⟨rfl, fun h => (by cases h), ?_⟩
    simp only
    cases hi' : a.rd.interp with
    | none => exact Or.inl rfl
    | linear => exact absurd hi' hi
    | quadratic =>
      refine Or.inr ⟨rfl, fun c hc => ?_⟩
      simp only [hc, if_true]
      exact ⟨rfl, fun h => by simp at h, fun h => by simp at h, fun h => by simp at h, fun h => by simp at h⟩
  have h := readAll_sim fp fuel ns hsim (show a.play.src = b.play.src by exact hs.symm)
  generalize readAll fp fuel ns a.play = x at h ⊢
  generalize readAll fp fuel ns b.play = y at h ⊢
  cases h with
  | ok h => simp only [framesOf]; rw [h.1]
  | error e => rfl

/-- Reading keeps the accumulator exact over a sequence of reads. -/
theorem readAll_exact {fp : Fp} {fuel : Nat} {p : Nat} : ∀ {ns : List Nat} {a b : ArrayReader} {fs : List (List Int)},
    readAll fp fuel ns a = .ok (fs, b) → a.rd.loopType ≠ .pingpong → GridRate p a.rd.rate → OnGrid p a.rd.rem →
    |a.rd.rem| < 1 → OnGrid p b.rd.rem ∧ |b.rd.rem| < 1 ∧ b.rd.rate = a.rd.rate
  | [], a, b, fs, h, _, _, hx, h1 => by unfold readAll at h; cases h; exact ⟨hx, h1, rfl⟩
  | n :: ns, a, b, fs, h, hl, hg, hx, h1 => by
    unfold readAll at h
    obtain ⟨⟨f, c⟩, h2, h⟩ := bind_ok_iff.1 h
    obtain ⟨⟨fs2, d⟩, h3, h⟩ := bind_ok_iff.1 h
    cases h
    unfold ArrayReader.read at h2
    obtain ⟨o, h4, h2⟩ := bind_ok_iff.1 h2
    cases h2
    obtain ⟨k1, k2, _⟩ := C31_no_drift fp arraySrc fuel a.rd a.src n o h4 hl hg hx h1
    have hr : o.r.rate = a.rd.rate := by
      unfold Rd.read at h4
      split at h4
      · cases h4; rfl
      · split at h4
        · cases h4
        · split at h4
          · split at h4
            · cases h4; rfl
            · cases h4
          · exact (readLoop_exact h4 hl hg hx h1).1
    obtain ⟨m1, m2, m3⟩ := readAll_exact h3 (by simp only; rw [(read_conf h4).loopType]; exact hl)
      (by simp only; rw [hr]; exact hg) k1 k2
    exact ⟨m1, m2, m3.trans hr⟩

/-- **C38** (partial) without side conditions on the state reached: at whole-number rates (any sign), without ping-pong,
replaying gives the same outcome after any amount of reading. -/
theorem C38_whole_rate_partial (fp : Fp) (fuel : Nat) (a b : ArrayReader) (ns0 : List Nat) (fs : List (List Int))
    (hi : a.rd.interp ≠ .linear) (hl : a.rd.loopType ≠ .pingpong) {k : Int} (hk : a.rd.rate = k) (hk' : |k| ≤ 2 ^ 30)
    (hrem : a.rd.rem = 0) (h0 : readAll fp fuel ns0 a.play = .ok (fs, b)) (ns : List Nat) :
    framesOf (readAll fp fuel ns b.play) = framesOf (readAll fp fuel ns a.play) := by
  have hk2 : |(k : ℚ)| ≤ 2 ^ 30 := by exact_mod_cast hk'
  have hg : GridRate 0 a.play.rd.rate := by
    show GridRate 0 a.rd.rate
    rw [hk]
    exact ⟨by norm_num, ⟨k, by simp⟩, le_trans hk2 (by norm_num), hk2⟩
  have hx : a.play.rd.rem = 0 := hrem
  obtain ⟨⟨m, m1⟩, m2, m3⟩ := readAll_exact h0 hl hg (by rw [hx]; exact ⟨0, by simp⟩) (by rw [hx]; simp)
  refine C38_same_again_partial fp fuel a b ns0 fs hi h0 ?_ m3 ns
  rw [hrem]
  rw [m1] at m2 ⊢
  simp only [pow_zero, div_one] at m2 ⊢
  have : |m| < 1 := by exact_mod_cast m2
  have : m = 0 := by rw [abs_lt] at this; omega
  rw [this]; simp

example : let a : ArrayReader := { rd := { nch := 1, fileSamples := 3, rate := 2 }, src := some [10, 20, 30] }
    ∀ b fs, readAll Fp.ieee 2 [1] a.play = .ok (fs, b) →
      framesOf (readAll Fp.ieee 2 [5] b.play) = framesOf (readAll Fp.ieee 2 [5] a.play) := fun b fs h =>
  C38_whole_rate_partial Fp.ieee 2 _ b [1] fs (by simp) (by simp) (k := 2) (by norm_num) (by norm_num) rfl h [5]

/-- The outcome of playing, reading `n0`, and playing again. -/
def replay (a : ArrayReader) (n0 n : Nat) : M (List (List Int)) := do
  let (_, b) ← a.play.read Fp.ieee 3 n0
  let (f, _) ← b.play.read Fp.ieee 3 n
  return f

/-- **C38 refuted**: the fraction left by the first run shifts the second (rate 3/4, four mono frames, stopped after
one frame). -/
theorem C38_refuted_remainder : ∃ a : ArrayReader, a.rd.rem = 0 ∧ a.rd.interp = .none ∧
    framesOf (a.play.read Fp.ieee 3 3) = .ok [[10], [10], [20]] ∧ replay a 1 3 = .ok [[10], [20], [30]] :=
  ⟨{ rd := { nch := 1, fileSamples := 4, rate := 3 / 4 }, src := some [10, 20, 30, 40] }, rfl, rfl, by decide +kernel,
    by decide +kernel⟩

/-- **C38 refuted**: with linear interpolation the first sample of the second run is one left over from the first. -/
theorem C38_refuted_linear : ∃ a : ArrayReader, a.rd.interp = .linear ∧ a.rd.rate = 1 ∧ a.rd.rem = 0 ∧
    framesOf (a.play.read Fp.ieee 3 2) = .ok [[0], [10]] ∧ replay a 3 2 = .ok [[30], [10]] :=
  ⟨{ rd := { nch := 1, fileSamples := 4, interp := .linear }, src := some [10, 20, 30, 40] }, rfl, rfl, rfl,
    by decide +kernel, by decide +kernel⟩

/-- **C38 refuted**: stopped on the way back of a ping-pong loop, `play()` starts from the other end. -/
theorem C38_refuted_pingpong : ∃ a : ArrayReader, a.rd.loopType = .pingpong ∧ a.rd.rate = 1 ∧ a.rd.rem = 0 ∧
    framesOf (a.play.read Fp.ieee 3 2) = .ok [[10], [20]] ∧ replay a 5 2 = .ok [[40], [30]] :=
  ⟨{ rd := { nch := 1, fileSamples := 4, loopFinish := 4, fileSize := 8, loopType := .pingpong },
     src := some [10, 20, 30, 40] }, rfl, rfl, rfl, by decide +kernel, by decide +kernel⟩

/-! ## C39 -/

/-- **C39** `setPlaybackRate` changes the rate and, of the position, nothing as long as playback is inside the material:
strictly after the first sample when going backwards, at or after it when going forwards. -/
theorem C39_no_jump (r : Rd) (f : ℚ) (h : r.header < r.pos1 ∨ (0 ≤ f ∧ r.header ≤ r.pos1)) :
    (r.setPlaybackRate f) = { r with rate := f } := by
  unfold Rd.setPlaybackRate
  simp only
  by_cases h0 : f < 0
  · have h1 : ¬ r.pos1 ≤ r.header := by rcases h with h | h; omega; exact absurd h.1 (not_le.2 h0)
    simp only [h0, h1, if_true, if_false]
    split
    · rfl
    · split <;> rfl
  · have h1 : ¬ r.pos1 < r.header := by rcases h with h | h <;> omega
    simp only [h0, h1, if_false]
    split
    · rfl
    · split <;> rfl

/-- **C39**, the moves that do happen, with a single head: reverse at or before the first sample goes to the last frame
(of the file, or of the loop for the other start modes); forward before the first sample goes to the start. -/
theorem C39_moves (r : Rd) (f : ℚ) (hd : r.dual = false)
    (hfit1 : InI32 (r.header + ((if r.playStart = .sample then r.fileSamples else r.loopFinish) - 1) * r.nch))
    (hfit2 : InI32 (r.header + (if r.playStart = .sample then 0 else r.loopStart) * r.nch)) :
    (f < 0 → r.pos1 ≤ r.header →
      r.setPlaybackRate f = { r with rate := f, pos1 := r.header + ((if r.playStart = .sample then r.fileSamples else r.loopFinish) - 1) * r.nch }) ∧
    (0 ≤ f → r.pos1 < r.header →
      r.setPlaybackRate f = { r with rate := f, pos1 := r.header + (if r.playStart = .sample then 0 else r.loopStart) * r.nch }) := by
  have hpo : ∀ x, InI32 (r.header + x * r.nch) → ({ r with rate := f } : Rd).posOf x = r.header + x * r.nch :=
    fun x h => posOf_eq (r := { r with rate := f }) h
  unfold Rd.setPlaybackRate
  simp only
  rw [if_pos (show (!r.dual) = true by simp [hd])]
  constructor
  · intro h0 h1
    simp only [h0, h1, if_true]
    split
    · rename_i hs; rw [if_pos hs] at hfit1; rw [hpo _ hfit1]
    · rename_i hs; rw [if_neg hs] at hfit1; rw [hpo _ hfit1]
  · intro h0 h1
    simp only [not_lt.2 h0, h1, if_true, if_false]
    split
    · rename_i hs; rw [if_pos hs] at hfit2; rw [hpo _ hfit2]
    · rename_i hs; rw [if_neg hs] at hfit2; rw [hpo _ hfit2]

/-- **C39** With two heads the second one never moves, and during a fade (non-zero weight) the first does not either. -/
theorem C39_dual (r : Rd) (f : ℚ) (hd : r.dual = true) :
    (r.setPlaybackRate f).pos2 = r.pos2 ∧ (r.crossfade ≠ 0 → r.setPlaybackRate f = { r with rate := f }) ∧
    (r.pos1 < r.header → 0 ≤ f → r.crossfade = 0 → (r.setPlaybackRate f).pos1 = r.header) := by
  unfold Rd.setPlaybackRate
  simp only [hd, Bool.not_true, Bool.false_eq_true, if_false]
  refine ⟨?_, fun h => by rw [if_neg h], fun h1 h2 h3 => ?_⟩
  · split
    · split
      · split <;> rfl
      · split <;> rfl
    · rfl
  · rw [if_pos h3, if_neg (not_lt.2 h2), if_pos h1]

/-- **C39** as heard: started forwards from the first sample of an array and turned round before reading, playback
delivers the material backwards from its last frame. -/
theorem C39_turn_round (fp : Fp) (fuel : Nat) (a : ArrayReader) (data : List Int) {F nch : Nat} (hc : 1 ≤ nch)
    (hc' : nch ≤ 32767) (hF : 1 ≤ F) (hlen : F * nch ≤ data.length) {p : Nat} {R : Int} {ρ : ℚ} (hρ : 0 < ρ)
    (hset : PlainSettings a.rd) (hloop : a.rd.loopType = .none) (hstart : a.rd.playStart = .sample)
    (h0 : 0 ≤ a.rd.rate) (hg : GridRate p ρ) (hR : ρ ≤ R)
    (hfit : (nch : Int) * (F + R + 1) ≤ 2147483647) (hrem : a.rd.rem = 0) (ns : List Nat) :
    ∃ a', readAll fp (fuel + 2) ns { (a.playRaw data F nch).2 with rd := (a.playRaw data F nch).2.rd.setPlaybackRate (-ρ) } =
      .ok ((reverseFrames (F - 1 : Int) ρ 0 ns.sum).map (frameOf data nch), a') := by
  have hR0 : 0 ≤ R := by
    have : (0 : ℚ) ≤ R := le_trans (le_of_lt hρ) hR
    exact_mod_cast this
  have hF31 : F < 2 ^ 31 := by
    have : (1 : Int) * (F + R + 1) ≤ nch * (F + R + 1) := mul_le_mul_of_nonneg_right (by omega) (by omega)
    omega
  obtain ⟨k1, k2, k3, k4, k5, k6, k7, k8, k9, k10, k11, k12, k13, k14, k15, k16, k17, k18⟩ :=
    playRaw_setup a data hc hc' hF31
  have hneg : -ρ < 0 := by linarith
  set b := (a.playRaw data F nch).2 with hb
  have f1 := frame_fits (H := 0) (N := nch) (le_refl 0) (by omega) (show 0 ≤ (F : Int) - 1 by omega)
    (show (F : Int) - 1 ≤ F + R + 1 by omega) (by rw [zero_add]; exact hfit)
  have hpos : b.rd.pos1 = 0 := by
    rw [k18, if_pos h0, hstart]
    simp only
    rw [posOf_eq (by rw [k3]; simp [InI32]), k3]; ring
  have hmove := (C39_moves b.rd (-ρ) (by rw [k13, hset.dual])
    (by rw [k11, hstart, if_pos rfl, k3, k4, k5]; unfold InI32; omega)
    (by rw [k11, hstart, if_pos rfl, k3]; simp [InI32])).1 hneg (by rw [hpos, k3])
  rw [k11, hstart, if_pos rfl, k3, k4, k5, zero_add] at hmove
  have hb' : ({ b with rd := b.rd.setPlaybackRate (-ρ) } : ArrayReader) =
      ⟨{ b.rd with rate := -ρ, pos1 := ((F : Int) - 1) * nch }, b.src⟩ := by
    rw [hmove]
    exact congrArg₂ ArrayReader.mk (by rw [← k3, ← k4, ← k5, ← hstart, ← k11]) rfl
  rw [hb']
  have hrev : Rev { b.rd with rate := -ρ, pos1 := ((F : Int) - 1) * nch } p R 0 (F - 1 : Int) := by
    refine ⟨⟨by simp only; rw [k13, hset.dual], by simp only; rw [k14, hset.interp], k15, by simp only; rw [k4]; omega⟩,
      by simp only; rw [k10, hloop], hneg, hg.neg, OnGrid.int p _, ?_, ?_, by simp only; rw [k3], ?_, le_refl 0,
      by simp only; rw [k5]; omega, by simp only; rw [neg_neg]; exact hR, by simp only; rw [k3, k4, k5, zero_add]; exact hfit,
      by simp only; rw [Int.ceil_intCast, k5]; omega, by rw [Int.ceil_intCast]; omega⟩
    · simp only; rw [Int.ceil_intCast, k3, k4, zero_add]
    · simp only; rw [Int.ceil_intCast, k9, hrem]; ring
    · simp only; rw [k11]; exact Or.inl ⟨hstart, trivial⟩
  obtain ⟨a', h, _⟩ := readAll_rev fp fuel data ns ⟨_, b.src⟩ _ hrev k2 k3 k1
    (by simp only; rw [k5, k4]; exact_mod_cast hlen)
  refine ⟨a', ?_⟩
  rw [h]
  simp only [neg_neg, k4, Int.toNat_natCast]

example : ∃ a', readAll Fp.ieee 2 [2, 9] { (({} : ArrayReader).playRaw [10, -10, 20, -20, 30, -30] (3 : Nat) (2 : Nat)).2 with
      rd := (({} : ArrayReader).playRaw [10, -10, 20, -20, 30, -30] (3 : Nat) (2 : Nat)).2.rd.setPlaybackRate (-1) } =
    .ok ((reverseFrames (3 - 1 : Int) 1 0 11).map (frameOf [10, -10, 20, -20, 30, -30] 2), a') :=
  C39_turn_round Fp.ieee 0 {} [10, -10, 20, -20, 30, -30] (F := 3) (nch := 2) (p := 0) (R := 1) (ρ := 1) (by norm_num)
    (by norm_num) (by norm_num) (by simp) (by norm_num) ⟨rfl, rfl⟩ rfl rfl (by norm_num)
    (GridRate.one (by norm_num)) (by norm_num) (by norm_num) rfl [2, 9]

example : ({ pos1 := 30, header := 22, rate := 1 } : Rd).setPlaybackRate (-3) = { pos1 := 30, header := 22, rate := -3 } :=
  C39_no_jump _ _ (Or.inl (by norm_num))

/-! ## C40 -/

/-- **C40** Every setter is seen through its getter, and through no other getter; positions do not move (except as
described by C39 for the rate). -/
theorem C40_round_trip (fp : Fp) (r : Rd) :
    (∀ f, IsFloat 24 (-149) f → (r.setPlaybackRate f).getters fp = { r.getters fp with playbackRate := f }) ∧
    (∀ t, (r.setLoopType t).getters fp = { r.getters fp with loopType := t } ∧ (r.setLoopType t).positions = r.positions) ∧
    (∀ l, 0 ≤ l → l < 2 ^ 31 → (r.setLoopStart l).getters fp = { r.getters fp with loopStart := l } ∧
      (r.setLoopStart l).positions = r.positions) ∧
    (∀ l, 0 ≤ l → l < 2 ^ 31 → (r.setLoopFinish l).getters fp = { r.getters fp with loopFinish := l } ∧
      (r.setLoopFinish l).positions = r.positions) ∧
    (∀ b, (r.setDual b).getters fp = { r.getters fp with dual := b } ∧ (r.setDual b).positions = r.positions) ∧
    (∀ n, 0 ≤ n → n < 2 ^ 32 → (r.setCfDur n).getters fp = { r.getters fp with crossfadeDuration := n } ∧
      (r.setCfDur n).positions = r.positions) ∧
    (∀ n, 0 ≤ n → n < 2 ^ 15 → (r.setNumChannels n).getters fp = { r.getters fp with numChannels := n } ∧
      (r.setNumChannels n).positions = r.positions) ∧
    (∀ b, (r.setPSRAM b).getters fp = { r.getters fp with bufferInPSRAM := b } ∧ (r.setPSRAM b).positions = r.positions) ∧
    (∀ t, (r.setInterp t).getters fp = r.getters fp ∧ (r.setInterp t).positions = r.positions) ∧
    (∀ n, (r.setHeaderSize n).getters fp = r.getters fp ∧ (r.setHeaderSize n).positions = r.positions) ∧
    (∀ p x, (r.setPlayStart p x).getters fp = r.getters fp ∧ (r.setPlayStart p x).positions = r.positions) := by
  refine ⟨?_, fun t => ⟨rfl, rfl⟩, ?_, ?_, fun b => ⟨rfl, rfl⟩, ?_, ?_, fun b => ⟨rfl, rfl⟩, fun t => ⟨rfl, rfl⟩,
    fun n => ⟨rfl, rfl⟩, fun p x => ⟨rfl, rfl⟩⟩
  · intro f hf
    have h1 : fp.f.rnd f = f := fp.f.exact f hf
    unfold Rd.setPlaybackRate
    simp only
    have key : ∀ x, ({ r with rate := f, pos1 := x } : Rd).getters fp = { r.getters fp with playbackRate := f } := by
      intro x; unfold Rd.getters; simp only [h1]
    have key' : ({ r with rate := f } : Rd).getters fp = { r.getters fp with playbackRate := f } := key r.pos1
    split
    · split
      · split
        · exact key _
        · exact key'
      · split
        · exact key _
        · exact key'
    · split
      · split
        · split
          · exact key _
          · exact key'
        · split
          · exact key _
          · exact key'
      · exact key'
  · intro l h0 h1
    have : i32 l = l := i32_of_in (by unfold InI32; omega)
    unfold Rd.setLoopStart Rd.getters; rw [this]; exact ⟨rfl, rfl⟩
  · intro l h0 h1
    have : i32 l = l := i32_of_in (by unfold InI32; omega)
    unfold Rd.setLoopFinish Rd.getters; rw [this]; exact ⟨rfl, rfl⟩
  · intro n h0 h1
    have : u32 n = n := by unfold u32; omega
    unfold Rd.setCfDur Rd.getters; rw [this]; exact ⟨rfl, rfl⟩
  · intro n h0 h1
    have h2 : u16 n = n := by unfold u16; omega
    have h3 : i16 n = n := by unfold i16; omega
    unfold Rd.setNumChannels
    rw [h2, h3]
    split
    · exact ⟨rfl, rfl⟩
    · rename_i h
      have h4 : r.nch = n := by omega
      refine ⟨?_, rfl⟩
      unfold Rd.getters; rw [h4]

/-- **C40** for the file readers: the loop setters also inform the cache, and still change nothing else. -/
theorem C40_file_setters (fp : Fp) (g : Geo) (a : FileReader) :
    (∀ t, (a.setLoopType t).rd.getters fp = { a.rd.getters fp with loopType := t }) ∧
    (∀ l, 0 ≤ l → l < 2 ^ 31 → (a.setLoopStart g l).rd.getters fp = { a.rd.getters fp with loopStart := l }) ∧
    (∀ l, 0 ≤ l → l < 2 ^ 31 → (a.setLoopFinish g l).rd.getters fp = { a.rd.getters fp with loopFinish := l }) :=
  ⟨fun t => ((C40_round_trip fp a.rd).2.1 t).1, fun l h0 h1 => ((C40_round_trip fp a.rd).2.2.1 l h0 h1).1,
   fun l h0 h1 => ((C40_round_trip fp a.rd).2.2.2.1 l h0 h1).1⟩

example (r : Rd) : ((r.setLoopStart 7).setLoopFinish 9).getters Fp.ieee =
    { r.getters Fp.ieee with loopStart := 7, loopFinish := 9 } := by
  rw [((C40_round_trip Fp.ieee _).2.2.2.1 9 (by norm_num) (by norm_num)).1,
    ((C40_round_trip Fp.ieee r).2.2.1 7 (by norm_num) (by norm_num)).1]

/-! ## C41 -/

/-- **C41** (partial) In an array, at unit rate: calling `loop(n)` when playback is at frame `q` makes exactly the frames
`q, ..., q+n-1` repeat.  Not covered because false: files with a header (`C41_refuted`). -/
theorem C41_loop_here_partial (fp : Fp) (fuel : Nat) (a : ArrayReader) (data : List Int) {nch : Nat} {q n : Int}
    (hc : 1 ≤ nch) (hsrc : a.src = some data) (hp : a.rd.playing = true) (hh : a.rd.header = 0) (hn : a.rd.nch = nch)
    (hset : PlainSettings a.rd) (hcf : a.rd.cfOn = false) (hw : a.rd.crossfade < 1) (hrate : a.rd.rate = 1)
    (hrem : OnGrid 52 a.rd.rem) (hrem0 : 0 ≤ a.rd.rem) (hrem1 : a.rd.rem < 1)
    (hpos : a.rd.pos1 = q * nch) (hq : 0 ≤ q) (hn1 : 1 ≤ n) (hlen : (q + n) * nch ≤ data.length)
    (hfit : (nch : Int) * (q + n + 1) ≤ 2147483647) (ns : List Nat) :
    ∃ b a', a.loop n = .ok b ∧ readAll fp (fuel + 2) ns b = .ok ((repeatFrames q q (q + n) ns.sum).map (frameOf data nch), a') := by
  have hdiv : a.rd.pos1.tdiv a.rd.nch = q := by
    rw [hpos, hn]; exact Int.mul_tdiv_cancel _ (by omega)
  have hfit1 : (1 : Int) * (q + n + 1) ≤ nch * (q + n + 1) := mul_le_mul_of_nonneg_right (by omega) (by omega)
  have hi : i32 (q + n) = q + n := i32_of_in (by unfold InI32; omega)
  have hl : a.loop n = .ok { a with rd := { a.rd with loopStart := q, loopFinish := q + n, loopType := .repeat } } := by
    unfold ArrayReader.loop Rd.loop
    simp only [hw, if_true, hdiv]
    rw [if_neg (by rw [hn]; omega), hi]
    rfl
  obtain ⟨r', s', h, _, _⟩ := repeat_law fp (arraySrcIs data) fuel (p := 52) (by norm_num) ns.sum
    { a.rd with loopStart := q, loopFinish := q + n, loopType := .repeat } q a.src
    ⟨⟨hset.dual, hset.interp, hcf, by simp only; rw [hn]; omega⟩, by simp only; rw [hpos, hh, hn]; ring, by simp only; rw [hh],
      hq, by simp only; omega, by simp only; rw [hh, hn, zero_add]; exact hfit⟩ rfl hrate hrem hrem0 hrem1 (le_refl q)
      (by simp only; omega) hsrc
    (fun i i0 i1 => by
      simp only [hh, hn] at i0 i1
      have := mul_nonneg hq (show (0 : Int) ≤ nch by omega)
      omega)
  have hfr : (repeatFrames q q (q + n) ns.sum).map
      (fun i => frameAt (fun i => data.getD i.toNat 0) a.rd.nch (a.rd.header + i * a.rd.nch)) =
      (repeatFrames q q (q + n) ns.sum).map (frameOf data nch) := by
    rw [hh, hn]
    apply List.map_congr_left
    intro i hi
    refine (frameAt_array data (by omega) ?_).trans (by rw [Int.toNat_natCast])
    obtain ⟨k, _, rfl⟩ := List.mem_map.1 hi
    have := Int.emod_nonneg ((k : Int) + q - q) (show q + n - q ≠ 0 by omega)
    omega
  simp only at h
  rw [hfr] at h
  refine ⟨_, ⟨r', s'⟩, hl, readAll_full
    (arrayRead_eq (a := ⟨{ a.rd with loopStart := q, loopFinish := q + n, loopType := .repeat }, a.src⟩) hp
      (show 0 < a.rd.nch by rw [hn]; omega) h) ?_⟩
  simp [repeatFrames]

example : ∃ b a', ({ rd := { playing := true, nch := 1, pos1 := 2 }, src := some [10, 20, 30, 40, 50] } : ArrayReader).loop 2 = .ok b ∧
    readAll Fp.ieee 2 [5] b = .ok ((repeatFrames 2 2 (2 + 2) 5).map (frameOf [10, 20, 30, 40, 50] 1), a') :=
  C41_loop_here_partial Fp.ieee 0 _ [10, 20, 30, 40, 50] (nch := 1) (q := 2) (n := 2) (by norm_num) rfl rfl rfl rfl ⟨rfl, rfl⟩ rfl
    (by norm_num) rfl ⟨0, by norm_num⟩ (by norm_num) (by norm_num) (by norm_num) (by norm_num) (by norm_num) (by simp)
    (by norm_num) [5]

/-- A WAV file with four mono frames. -/
def exMono : List Nat := Spec.wav { exFields with channels := 1 } none 8 [1, 0, 2, 0, 3, 0, 4, 0]

/-- **C41 refuted**: a WAV file with four mono frames 1, 2, 3, 4, played and told to loop the two frames at the current (first) position:
it plays on into frames 3 and 4 and beyond the material. -/
theorem C41_refuted :
    (do
      let (_, a) ← ({} : FileReader).playWav ⟨11, 7, fun _ => []⟩ (some ⟨exMono, 0, false⟩) (List.replicate 36 7)
      let a ← a.loop 2
      let (f, _) ← a.read Fp.ieee ⟨11, 7, fun _ => []⟩ true 3 4
      return f) = .ok [[1], [2], [3], [4]] := by
  decide +kernel

end TVP
