import Verif.Props.Laws
import Verif.Lemmas.Drift

/-!
# Properties C28-C31: looping, and the accumulator
-/

namespace TVP
open Spec

/-- A sequence of reads that is covered by one full read. -/
theorem readAll_full {fp : Fp} {fuel : Nat} : ∀ {ns : List Nat} {a a' : ArrayReader} {fs : List (List Int)},
    a.read fp fuel ns.sum = .ok (fs, a') → fs.length = ns.sum → readAll fp fuel ns a = .ok (fs, a')
  | [], a, a', fs, h, hl => by
    have : a.read fp fuel 0 = .ok ([], a) ∨ ∃ e, a.read fp fuel 0 = .error e := by
      unfold ArrayReader.read Rd.read
      split
      · exact Or.inl rfl
      · split
        · exact Or.inr ⟨_, rfl⟩
        · split
          · exact Or.inl rfl
          · exact Or.inl rfl
    rcases this with h' | ⟨e, h'⟩
    · rw [List.sum_nil, h'] at h; cases h; rfl
    · rw [List.sum_nil, h'] at h; cases h
  | n :: ns, a, a', fs, h, hl => by
    rw [List.sum_cons] at h hl
    unfold ArrayReader.read at h
    rw [C24_split_read] at h
    obtain ⟨o, h0, h'⟩ := bind_ok_iff.1 h
    clear h
    obtain ⟨o1, h1, h⟩ := bind_ok_iff.1 h0
    cases h'
    have hr1 : a.read fp fuel n = .ok (o1.frames, ⟨o1.r, o1.s⟩) := by
      unfold ArrayReader.read; rw [h1]; rfl
    have hle := (C23_count_and_alignment fp _ _ _ _ _ _ h1).1
    split at h
    · rename_i hfull
      obtain ⟨o2, h2, h⟩ := bind_ok_iff.1 h
      cases h
      simp only [List.length_append] at hl
      have hr2 : ArrayReader.read fp fuel ⟨o1.r, o1.s⟩ ns.sum = .ok (o2.frames, ⟨o2.r, o2.s⟩) := by
        unfold ArrayReader.read; rw [h2]; rfl
      rw [readAll, hr1]
      simp only [ok_bind]
      rw [readAll_full hr2 (by omega)]
      rfl
    · cases h; omega

/-- `setLoopType`, `setLoopStart` and `setLoopFinish` during playback. -/
def ArrayReader.loopOver (a : ArrayReader) (t : LoopType) (A E : Int) : ArrayReader :=
  { a with rd := ((a.rd.setLoopType t).setLoopStart A).setLoopFinish E }

/-- The reader after `playRaw` from a user position `s` and setting the loop `[A, E)`. -/
theorem loopOver_setup (a : ArrayReader) (data : List Int) {F nch : Nat} (h1 : 1 ≤ nch) (h2 : nch ≤ 32767)
    (hF : F < 2 ^ 31) (t : LoopType) {A E s : Int} (hA : 0 ≤ A) (hE : E ≤ F) (hAE : A < E)
    (hs : a.rd.playStart = .arbitrary) (hs' : a.rd.playbackStart = s) (hsfit : InI32 (s * nch)) :
    let b := (a.playRaw data F nch).2.loopOver t A E
    b.src = some data ∧ b.rd.playing = true ∧ b.rd.header = 0 ∧ b.rd.nch = nch ∧ b.rd.loopStart = A ∧
    b.rd.loopFinish = E ∧ b.rd.rate = a.rd.rate ∧ b.rd.rem = a.rd.rem ∧ b.rd.loopType = t ∧
    b.rd.playStart = .arbitrary ∧ b.rd.dual = a.rd.dual ∧ b.rd.interp = a.rd.interp ∧ b.rd.cfOn = false ∧
    b.rd.pos1 = s * nch := by
  obtain ⟨k1, k2, k3, k4, k5, k6, k7, k8, k9, k10, k11, k12, k13, k14, k15, k16, k17, k18⟩ :=
    playRaw_setup a data h1 h2 hF
  have e1 : i32 A = A := by unfold i32; omega
  have e2 : i32 E = E := by unfold i32; omega
  refine ⟨k1, k2, k3, k4, e1, e2, k8, k9, rfl, by rw [← hs]; exact k11, k13, k14, k15, ?_⟩
  show (a.playRaw data F nch).2.rd.pos1 = _
  rw [k18, hs, hs']
  have : (a.playRaw data F nch).2.rd.posOf s = s * nch := by
    rw [posOf_eq (by rw [k3, k4, zero_add]; exact hsfit), k3, k4, zero_add]
  simp only [this, ite_self]

/-- **C28** (repeat loop).  At unit rate with `looptype_repeat` over `[A, E)`, starting at a frame `s` of the loop, the
`k`-th frame delivered is `A + (k + s - A) mod (E - A)`; reads are always full, however they are sized. -/
theorem C28_repeat_law (fp : Fp) (fuel : Nat) (a : ArrayReader) (data : List Int) {F nch : Nat} (hc : 1 ≤ nch)
    (hc' : nch ≤ 32767) (hlen : F * nch ≤ data.length) (hfit : (nch : Int) * (F + 1) ≤ 2147483647)
    {A E s : Int} (hA : 0 ≤ A) (hAE : A < E) (hE : E ≤ F) (hs1 : A ≤ s) (hs2 : s < E)
    (hset : PlainSettings a.rd) (hstart : a.rd.playStart = .arbitrary) (hst : a.rd.playbackStart = s)
    (hrate : a.rd.rate = 1) (hrem : a.rd.rem = 0) (ns : List Nat) :
    ∃ a', readAll fp (fuel + 2) ns ((a.playRaw data F nch).2.loopOver .repeat A E) =
      .ok ((repeatFrames s A E ns.sum).map (frameOf data nch), a') := by
  have hF31 : F < 2 ^ 31 := by
    have : (1 : Int) * (F + 1) ≤ nch * (F + 1) := mul_le_mul_of_nonneg_right (by omega) (by omega)
    omega
  have f := frame_fits (H := 0) (N := nch) (le_refl 0) (by omega) (show 0 ≤ s by omega) (show s ≤ F + 1 by omega)
    (by rw [zero_add]; exact hfit)
  obtain ⟨k1, k2, k3, k4, k5, k6, k7, k8, k9, k10, k11, k12, k13, k14⟩ := loopOver_setup a data hc hc' hF31 .repeat
    hA hE hAE hstart hst (by unfold InI32; omega)
  set b := (a.playRaw data F nch).2.loopOver .repeat A E with hb
  have hu : ULoop b.rd s := by
    refine ⟨⟨by rw [k11, hset.dual], by rw [k12, hset.interp], k13, by rw [k4]; omega⟩, ?_, by rw [k3], by rw [k5]; exact hA,
      by rw [k5, k6]; exact hAE, ?_⟩
    · rw [k14, k3, k4, zero_add]
    · rw [k3, k4, k6]
      have := mul_le_mul_of_nonneg_left (show E + 1 ≤ (F : Int) + 1 by omega) (show (0 : Int) ≤ nch by omega)
      omega
  obtain ⟨r', s', h, _, _⟩ := repeat_law fp (arraySrcIs data) fuel (p := 0) (by norm_num) ns.sum b.rd s b.src hu k9
    (by rw [k7, hrate]) (by rw [k8, hrem]; simpa using OnGrid.int 0 0) (by rw [k8, hrem]) (by rw [k8, hrem]; norm_num)
    (by rw [k5]; exact hs1) (by rw [k6]; omega) k1
    (fun i i0 i1 => by
      rw [k3, k4, k5] at i0; rw [k3, k4, k6] at i1
      have := mul_nonneg hA (show (0 : Int) ≤ nch by omega)
      have := mul_le_mul_of_nonneg_right hE (show (0 : Int) ≤ nch by omega)
      have : ((F * nch : Nat) : Int) ≤ data.length := by exact_mod_cast hlen
      push_cast at this
      omega)
  have hfr : (repeatFrames s b.rd.loopStart b.rd.loopFinish ns.sum).map
      (fun i => frameAt (fun i => data.getD i.toNat 0) b.rd.nch (b.rd.header + i * b.rd.nch)) =
      (repeatFrames s A E ns.sum).map (frameOf data nch) := by
    rw [k5, k6, k3, k4]
    apply List.map_congr_left
    intro i hi
    refine (frameAt_array data (by omega) ?_).trans (by rw [Int.toNat_natCast])
    obtain ⟨k, _, rfl⟩ := List.mem_map.1 hi
    have := Int.emod_nonneg ((k : Int) + s - A) (show E - A ≠ 0 by omega)
    omega
  rw [hfr] at h
  refine ⟨⟨r', s'⟩, readAll_full (arrayRead_eq k2 (by rw [k4]; omega) h) ?_⟩
  simp [repeatFrames]

/-- A reader that starts at frame 2. -/
def exLoop : ArrayReader := { rd := { playStart := .arbitrary, playbackStart := 2 } }

example : ∃ a', readAll Fp.ieee 2 [3, 5] ((exLoop.playRaw [10, 20, 30, 40, 50] (5 : Nat) (1 : Nat)).2.loopOver .repeat 1 4) =
    .ok ((repeatFrames 2 1 4 8).map (frameOf [10, 20, 30, 40, 50] 1), a') :=
  C28_repeat_law Fp.ieee 0 exLoop [10, 20, 30, 40, 50] (F := 5) (nch := 1) (s := 2) (by norm_num) (by norm_num) (by simp)
    (by norm_num) (by norm_num) (by norm_num) (by norm_num) (by norm_num) (by norm_num) ⟨rfl, rfl⟩ rfl rfl rfl rfl [3, 5]

example : framesOf (readAll Fp.ieee 2 [3, 5] ((exLoop.playRaw [10, 20, 30, 40, 50] 5 1).2.loopOver .repeat 1 4)) =
    .ok [[30], [40], [20], [30], [40], [20], [30], [40]] := by decide +kernel

/-- The state of the looping reader at the start, for any rate. -/
theorem loopOver_inside (fp : Fp) (hfp : Representable fp) (fuel : Nat) (a : ArrayReader) (data : List Int) {F nch : Nat}
    (t : LoopType) (ht : t ≠ .none) (hc : 1 ≤ nch) (hc' : nch ≤ 32767) (hlen : F * nch ≤ data.length)
    {R : Int} (hR : |a.rd.rate| ≤ R) (hR30 : R ≤ 2 ^ 30) (hfit : (nch : Int) * (F + R + 2) ≤ 2147483647)
    {A E s : Int} (hA : 0 ≤ A) (hAE : A < E) (hE : E ≤ F) (hs1 : A ≤ s) (hs2 : s < E)
    (hback : (t = .repeat ∧ 0 ≤ a.rd.rate) ∨ A ≤ E - nch)
    (hset : PlainSettings a.rd) (hstart : a.rd.playStart = .arbitrary) (hst : a.rd.playbackStart = s)
    (hrem : a.rd.rem = 0) (ns : List Nat) :
    ∃ (idx : List Int) (a' : ArrayReader), readAll fp (fuel + 2) ns ((a.playRaw data F nch).2.loopOver t A E) =
      .ok (idx.map (frameOf data nch), a') ∧ idx.length = ns.sum ∧ (∀ i ∈ idx, A ≤ i ∧ i < E) ∧
      ∃ q : Int, a'.rd.pos1 = q * nch := by
  have hR0 : 0 ≤ R := by
    have : (0 : ℚ) ≤ R := le_trans (abs_nonneg _) hR
    exact_mod_cast this
  have hF31 : F < 2 ^ 31 := by
    have : (1 : Int) * (F + R + 2) ≤ nch * (F + R + 2) := mul_le_mul_of_nonneg_right (by omega) (by omega)
    omega
  have f := frame_fits (H := 0) (N := nch) (le_refl 0) (by omega) (show 0 ≤ s by omega) (show s ≤ F + R + 2 by omega)
    (by rw [zero_add]; exact hfit)
  obtain ⟨k1, k2, k3, k4, k5, k6, k7, k8, k9, k10, k11, k12, k13, k14⟩ := loopOver_setup a data hc hc' hF31 t
    hA hE hAE hstart hst (by unfold InI32; omega)
  set b := (a.playRaw data F nch).2.loopOver t A E with hb
  have hu : Loop b.rd R s := by
    refine ⟨⟨by rw [k11, hset.dual], by rw [k12, hset.interp], k13, by rw [k4]; omega⟩, by rw [k9]; exact ht,
      by rw [k7]; exact hR, hR30, by rw [k8, hrem]; exact ⟨0, 0, by norm_num⟩, by rw [k8, hrem]; norm_num, ?_,
      by rw [k3], by rw [k5]; exact hA, by rw [k5, k6]; exact hAE, ?_, ?_, fun _ => by rw [k5, k6]; omega,
      fun _ => by rw [k5, k6]; omega⟩
    · rw [k14, k3, k4, zero_add]
    · rw [k9, k7, k10, k5, k6, k4]
      rcases hback with h | h
      · exact Or.inl h
      · exact Or.inr ⟨Or.inl (by simp), h⟩
    · rw [k3, k4, k6]
      have := mul_le_mul_of_nonneg_left (show E + R + 2 ≤ (F : Int) + R + 2 by omega) (show (0 : Int) ≤ nch by omega)
      omega
  obtain ⟨idx, r', q', s', h, hl, hi, hl', _, hcf⟩ := loop_inside fp hfp (arraySrcIs data) fuel ns.sum b.rd s b.src hu k1
    (fun i i0 i1 => by
      rw [k3, k4, k5] at i0; rw [k3, k4, k6] at i1
      have := mul_nonneg hA (show (0 : Int) ≤ nch by omega)
      have := mul_le_mul_of_nonneg_right hE (show (0 : Int) ≤ nch by omega)
      have : ((F * nch : Nat) : Int) ≤ data.length := by exact_mod_cast hlen
      push_cast at this
      omega)
  rw [k5, k6] at hi
  have hfr : idx.map (fun i => frameAt (fun i => data.getD i.toNat 0) b.rd.nch (b.rd.header + i * b.rd.nch)) =
      idx.map (frameOf data nch) := by
    rw [k3, k4]
    apply List.map_congr_left
    intro i hmem
    refine (frameAt_array data (by omega) ?_).trans (by rw [Int.toNat_natCast])
    have := (hi i hmem).1
    omega
  rw [hfr] at h
  refine ⟨idx, ⟨r', s'⟩, readAll_full (arrayRead_eq k2 (by rw [k4]; omega) h) ?_, hl, hi, q', ?_⟩
  · rw [List.length_map, hl]
  · simp only
    rw [hl'.pos, hcf.header, hcf.nch, k3, k4, zero_add]

/-- **C29** (partial).  With `looptype_repeat` over `[A, E)` and any rate, in either direction, every frame delivered
lies in the loop, reads are always full and the position stays a frame boundary.  Not covered, because false
(`C29_refuted`): reverse playback with the default `play_start_sample` and `A > 0`; reverse loops shorter than `nch`
frames. -/
theorem C29_inside_loop_partial (fp : Fp) (hfp : Representable fp) (fuel : Nat) (a : ArrayReader) (data : List Int)
    {F nch : Nat} (hc : 1 ≤ nch) (hc' : nch ≤ 32767) (hlen : F * nch ≤ data.length)
    {R : Int} (hR : |a.rd.rate| ≤ R) (hR30 : R ≤ 2 ^ 30) (hfit : (nch : Int) * (F + R + 2) ≤ 2147483647)
    {A E s : Int} (hA : 0 ≤ A) (hAE : A < E) (hE : E ≤ F) (hs1 : A ≤ s) (hs2 : s < E)
    (hback : 0 ≤ a.rd.rate ∨ A ≤ E - nch)
    (hset : PlainSettings a.rd) (hstart : a.rd.playStart = .arbitrary) (hst : a.rd.playbackStart = s)
    (hrem : a.rd.rem = 0) (ns : List Nat) :
    ∃ (idx : List Int) (a' : ArrayReader), readAll fp (fuel + 2) ns ((a.playRaw data F nch).2.loopOver .repeat A E) =
      .ok (idx.map (frameOf data nch), a') ∧ idx.length = ns.sum ∧ (∀ i ∈ idx, A ≤ i ∧ i < E) ∧
      ∃ q : Int, a'.rd.pos1 = q * nch :=
  loopOver_inside fp hfp fuel a data .repeat (by simp) hc hc' hlen hR hR30 hfit hA hAE hE hs1 hs2
    (hback.imp (fun h => ⟨rfl, h⟩) id) hset hstart hst hrem ns

/-- A reader going backwards at an irregular speed from frame 4 of a stereo array. -/
def exLoopBack : ArrayReader := { rd := { rate := -(5 / 3), playStart := .arbitrary, playbackStart := 4 } }

example : ∃ (idx : List Int) (a' : ArrayReader),
    readAll Fp.ieee 2 [3, 5] ((exLoopBack.playRaw ((List.range 12).map fun i : Nat => (i : Int)) (6 : Nat) (2 : Nat)).2.loopOver
      .repeat 1 5) = .ok (idx.map (frameOf ((List.range 12).map fun i : Nat => (i : Int)) 2), a') ∧ idx.length = 8 ∧
      (∀ i ∈ idx, 1 ≤ i ∧ i < 5) ∧ ∃ q : Int, a'.rd.pos1 = q * (2 : Nat) :=
  C29_inside_loop_partial Fp.ieee ieee_representable 0 exLoopBack _ (F := 6) (nch := 2) (R := 2) (s := 4) (by norm_num) (by norm_num) (by simp)
    (by norm_num [exLoopBack, abs_of_pos]) (by norm_num) (by norm_num) (by norm_num) (by norm_num) (by norm_num) (by norm_num) (by norm_num)
    (Or.inr (by norm_num)) ⟨rfl, rfl⟩ rfl rfl rfl [3, 5]

/-- **C29** fails with the default play start: a reverse loop over frames 2 and 3 delivers frames 1 and 0. -/
theorem C29_refuted :
    ∃ (a : ArrayReader) (data : List Int), a.rd.playStart = .sample ∧ a.rd.rate = -1 ∧
      framesOf (readAll Fp.ieee 8 [6] ((a.playRaw data 4 1).2.loopOver .repeat 2 4)) =
        .ok [[103], [102], [101], [100], [103], [102]] :=
  ⟨{ rd := { rate := -1 } }, [100, 101, 102, 103], rfl, rfl, by decide +kernel⟩

/-- **C30** (partial).  Ping-pong over `[A, E)` at any rate: always full, always inside the loop.  Not covered, because
false (`C30_refuted`): the default `play_start_sample` with `A > 0`.  Not covered either: loops of fewer than `nch`
frames. -/
theorem C30_inside_loop_partial (fp : Fp) (hfp : Representable fp) (fuel : Nat) (a : ArrayReader) (data : List Int)
    {F nch : Nat} (hc : 1 ≤ nch) (hc' : nch ≤ 32767) (hlen : F * nch ≤ data.length)
    {R : Int} (hR : |a.rd.rate| ≤ R) (hR30 : R ≤ 2 ^ 30) (hfit : (nch : Int) * (F + R + 2) ≤ 2147483647)
    {A E s : Int} (hA : 0 ≤ A) (hAE : A ≤ E - nch) (hE : E ≤ F) (hs1 : A ≤ s) (hs2 : s < E)
    (hset : PlainSettings a.rd) (hstart : a.rd.playStart = .arbitrary) (hst : a.rd.playbackStart = s)
    (hrem : a.rd.rem = 0) (ns : List Nat) :
    ∃ (idx : List Int) (a' : ArrayReader), readAll fp (fuel + 2) ns ((a.playRaw data F nch).2.loopOver .pingpong A E) =
      .ok (idx.map (frameOf data nch), a') ∧ idx.length = ns.sum ∧ (∀ i ∈ idx, A ≤ i ∧ i < E) ∧
      ∃ q : Int, a'.rd.pos1 = q * nch :=
  loopOver_inside fp hfp fuel a data .pingpong (by simp) hc hc' hlen hR hR30 hfit hA (by omega) hE hs1 hs2
    (Or.inr hAE) hset hstart hst hrem ns

/-- **C30** (partial), the exact sequence at unit rate: up through every frame of the loop, then down from frame
`E - nch` to `A`, and so on.  For mono material both turning points are played twice. -/
theorem C30_pingpong_law_partial (fp : Fp) (fuel : Nat) (a : ArrayReader) (data : List Int) {F nch : Nat} (hc : 1 ≤ nch)
    (hc' : nch ≤ 32767) (hlen : F * nch ≤ data.length) (hfit : (nch : Int) * (F + 1) ≤ 2147483647)
    {A E s : Int} (hA : 0 ≤ A) (hAE : A ≤ E - nch) (hE : E ≤ F) (hs1 : A ≤ s) (hs2 : s < E)
    (hset : PlainSettings a.rd) (hstart : a.rd.playStart = .arbitrary) (hst : a.rd.playbackStart = s)
    (hrate : a.rd.rate = 1) (hrem : a.rd.rem = 0) (ns : List Nat) :
    ∃ a', readAll fp (fuel + 2) ns ((a.playRaw data F nch).2.loopOver .pingpong A E) =
      .ok ((pingpongFrames s A E nch ns.sum).map (frameOf data nch), a') := by
  have hF31 : F < 2 ^ 31 := by
    have : (1 : Int) * (F + 1) ≤ nch * (F + 1) := mul_le_mul_of_nonneg_right (by omega) (by omega)
    omega
  have f := frame_fits (H := 0) (N := nch) (le_refl 0) (by omega) (show 0 ≤ s by omega) (show s ≤ F + 1 by omega)
    (by rw [zero_add]; exact hfit)
  obtain ⟨k1, k2, k3, k4, k5, k6, k7, k8, k9, k10, k11, k12, k13, k14⟩ := loopOver_setup a data hc hc' hF31 .pingpong
    hA hE (by omega) hstart hst (by unfold InI32; omega)
  set b := (a.playRaw data F nch).2.loopOver .pingpong A E with hb
  have hu : PPhase b.rd (s - A) := by
    refine Or.inl ⟨by rw [k7, hrate], by omega, by rw [k5, k6]; omega, ?_⟩
    rw [k5, show A + (s - A) = s by ring]
    refine ⟨⟨by rw [k11, hset.dual], by rw [k12, hset.interp], k13, by rw [k4]; omega⟩, ?_, by rw [k3], by rw [k5]; exact hA,
      by rw [k5, k6]; omega, ?_⟩
    · rw [k14, k3, k4, zero_add]
    · rw [k3, k4, k6]
      have := mul_le_mul_of_nonneg_left (show E + 1 ≤ (F : Int) + 1 by omega) (show (0 : Int) ≤ nch by omega)
      omega
  obtain ⟨r', s', h, _, _⟩ := pingpong_law fp (arraySrcIs data) fuel ns.sum b.rd (s - A) b.src hu k9
    (by rw [k8, hrem]) (Or.inl (by rw [k10]; simp)) (by rw [k4, k5, k6]; omega) k1
    (fun i i0 i1 => by
      rw [k3, k4, k5] at i0; rw [k3, k4, k6] at i1
      have := mul_nonneg hA (show (0 : Int) ≤ nch by omega)
      have := mul_le_mul_of_nonneg_right hE (show (0 : Int) ≤ nch by omega)
      have : ((F * nch : Nat) : Int) ≤ data.length := by exact_mod_cast hlen
      push_cast at this
      omega)
  have hfr : (pingpongFrames (b.rd.loopStart + (s - A)) b.rd.loopStart b.rd.loopFinish b.rd.nch ns.sum).map
      (fun i => frameAt (fun i => data.getD i.toNat 0) b.rd.nch (b.rd.header + i * b.rd.nch)) =
      (pingpongFrames s A E nch ns.sum).map (frameOf data nch) := by
    rw [k5, k6, k3, k4, show A + (s - A) = s by ring]
    apply List.map_congr_left
    intro i hi
    refine (frameAt_array data (by omega) ?_).trans (by rw [Int.toNat_natCast])
    obtain ⟨k, _, rfl⟩ := List.mem_map.1 hi
    have h0 := Int.emod_nonneg ((k : Int) + s - A) (show 2 * (E - A) - nch + 1 ≠ 0 by omega)
    have h1 := Int.emod_lt_of_pos ((k : Int) + s - A) (show 0 < 2 * (E - A) - nch + 1 by omega)
    simp only
    split <;> omega
  rw [hfr] at h
  refine ⟨⟨r', s'⟩, readAll_full (arrayRead_eq k2 (by rw [k4]; omega) h) ?_⟩
  simp [pingpongFrames]

example : ∃ a', readAll Fp.ieee 2 [3, 5] ((exLoop.playRaw [10, 20, 30, 40, 50] (5 : Nat) (1 : Nat)).2.loopOver .pingpong 1 4) =
    .ok ((pingpongFrames 2 1 4 (1 : Nat) 8).map (frameOf [10, 20, 30, 40, 50] 1), a') :=
  C30_pingpong_law_partial Fp.ieee 0 exLoop [10, 20, 30, 40, 50] (F := 5) (nch := 1) (s := 2) (by norm_num) (by norm_num) (by simp)
    (by norm_num) (by norm_num) (by norm_num) (by norm_num) (by norm_num) (by norm_num) ⟨rfl, rfl⟩ rfl rfl rfl rfl [3, 5]

example : framesOf (readAll Fp.ieee 2 [3, 5] ((exLoop.playRaw [10, 20, 30, 40, 50] 5 1).2.loopOver .pingpong 1 4)) =
    .ok [[30], [40], [40], [30], [20], [20], [30], [40]] := by decide +kernel

example : ∃ (idx : List Int) (a' : ArrayReader),
    readAll Fp.ieee 2 [3, 5] ((exLoopBack.playRaw ((List.range 12).map fun i : Nat => (i : Int)) (6 : Nat) (2 : Nat)).2.loopOver
      .pingpong 1 5) = .ok (idx.map (frameOf ((List.range 12).map fun i : Nat => (i : Int)) 2), a') ∧ idx.length = 8 ∧
      (∀ i ∈ idx, 1 ≤ i ∧ i < 5) ∧ ∃ q : Int, a'.rd.pos1 = q * (2 : Nat) :=
  C30_inside_loop_partial Fp.ieee ieee_representable 0 exLoopBack _ (F := 6) (nch := 2) (R := 2) (s := 4) (by norm_num) (by norm_num) (by simp)
    (by norm_num [exLoopBack, abs_of_pos]) (by norm_num) (by norm_num) (by norm_num) (by norm_num) (by norm_num) (by norm_num) (by norm_num)
    ⟨rfl, rfl⟩ rfl rfl rfl [3, 5]

/-- **C30** fails with the default play start: a ping-pong loop over frames 2 and 3 runs down to frame 0. -/
theorem C30_refuted :
    ∃ (a : ArrayReader) (data : List Int), a.rd.playStart = .sample ∧ a.rd.rate = 1 ∧
      framesOf (readAll Fp.ieee 8 [9] ((a.playRaw data 4 1).2.loopOver .pingpong 2 4)) =
        .ok [[100], [101], [102], [103], [103], [102], [101], [100], [100]] :=
  ⟨{}, [100, 101, 102, 103], rfl, rfl, by decide +kernel⟩

/-- **C31** No drift.  Over any successful read, in any configuration other than ping-pong (any source, interpolation,
dual head or not), the fraction of the accumulator is exactly the ideal one: it differs from
`fraction + k * rate` (`k` the number of frames delivered) by a whole number of frames, its magnitude stays below one,
and without looping that whole number is exactly how far the position moved. -/
theorem C31_no_drift (fp : Fp) {σ} (S : Src σ) (fuel : Nat) (r : Rd) (s : σ) (n : Nat) (o : ReadOut σ) {p : Nat}
    (h : r.read fp S fuel s n = .ok o) (hl : r.loopType ≠ .pingpong) (hg : GridRate p r.rate) (hx : OnGrid p r.rem)
    (h1 : |r.rem| < 1) :
    OnGrid p o.r.rem ∧ |o.r.rem| < 1 ∧ ∃ D : Int, D + o.r.rem = r.rem + o.frames.length * r.rate ∧
      (r.loopType = .none → r.dual = false → o.r.pos1 = r.pos1 + D * r.nch) := by
  have h0 : OnGrid p r.rem ∧ |r.rem| < 1 ∧ ∃ D : Int, D + r.rem = r.rem + (([] : List (List Int)).length : ℚ) * r.rate ∧
      (r.loopType = .none → r.dual = false → r.pos1 = r.pos1 + D * r.nch) := ⟨hx, h1, 0, by simp, fun _ _ => by simp⟩
  unfold Rd.read at h
  split at h
  · cases h; exact h0
  · split at h
    · cases h
    · split at h
      · split at h
        · cases h; exact h0
        · cases h
      · exact (readLoop_exact h hl hg hx h1).2

/-- **C31** for arbitrary double rates: the fraction stays below one in magnitude (in every configuration), and without
looping the position only ever moves in the direction of the rate. -/
theorem C31_any_double (fp : Fp) (hfp : Representable fp) {σ} (S : Src σ) (fuel : Nat) (r : Rd) (s : σ) (n : Nat)
    (o : ReadOut σ) (h : r.read fp S fuel s n = .ok o) (hx : IsFloat 53 (-1074) r.rem) (h1 : |r.rem| < 1) :
    IsFloat 53 (-1074) o.r.rem ∧ |o.r.rem| < 1 ∧ (r.loopType = .none → r.dual = false →
      (0 ≤ r.rate → r.pos1 ≤ o.r.pos1) ∧ (r.rate ≤ 0 → o.r.pos1 ≤ r.pos1)) := by
  have h0 : IsFloat 53 (-1074) r.rem ∧ |r.rem| < 1 ∧ (r.loopType = .none → r.dual = false →
      (0 ≤ r.rate → r.pos1 ≤ r.pos1) ∧ (r.rate ≤ 0 → r.pos1 ≤ r.pos1)) :=
    ⟨hx, h1, fun _ _ => ⟨fun _ => le_refl _, fun _ => le_refl _⟩⟩
  unfold Rd.read at h
  split at h
  · cases h; exact h0
  · split at h
    · cases h
    · split at h
      · split at h
        · cases h; exact h0
        · cases h
      · exact readLoop_mono hfp h (by omega) hx h1

/-- A reader in the middle of an array, with linear interpolation, at rate 3/4. -/
def exDrift : ArrayReader := { exStereo with rd := { exStereo.rd with interp := .linear, rate := 3 / 4, rem := 1 / 2 } }

example : (framesOf (exDrift.read Fp.ieee 2 3)).toOption.map List.length = some 3 ∧ exDrift.rd.loopType ≠ .pingpong ∧
    |exDrift.rd.rem| < 1 := by decide +kernel

example : GridRate 2 exDrift.rd.rate ∧ OnGrid 2 exDrift.rd.rem :=
  ⟨⟨by norm_num, ⟨3, by norm_num [exDrift]⟩, by norm_num [exDrift, abs_of_pos], by norm_num [exDrift, abs_of_pos]⟩,
    ⟨2, by norm_num [exDrift]⟩⟩

end TVP
