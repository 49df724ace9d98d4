import Verif.Props.PingStream
import Verif.Props.StreamInterp

/-!
# Property C72: changing the speed while a file plays

The theorems stand beside those for a constant speed: `C72_forward_raw_partial`, `C72_forward_wav_partial` (Props/Stream.lean),
`C72_back_raw_partial`, `C72_back_wav_partial` (Props/StreamRev.lean), `C72_loop_raw_partial`, `C72_loop_wav_partial`
(Props/LoopStream.lean), `C72_loop_back_raw_partial`, `C72_loop_back_wav_partial` (Props/LoopStreamRev.lean),
`C72_ping_raw_partial`, `C72_ping_wav_partial` (Props/PingStream.lean), `C72_smooth_raw_partial`, `C72_smooth_wav_partial`
(Props/StreamInterp.lean).  Here are examples for the raw files, and where changing the speed does make a difference.  The hypotheses for WAV
files are those of `C17_wav`, `C18_wav_partial`, `C60_wav_partial`, `C60_back_wav_partial`, `C71_wav_partial` and `C68_wav_partial`, whose
examples meet them.
-/

namespace TVP
open Spec

/-- An update with all the memory it needs. -/
def Deed.full : Deed := .tick fun _ => true

/-- When what is allowed does not depend on the player, only the speeds matter. -/
theorem Allowed.always (fp : Fp) (fuel : Nat) {ok : Rd → ℚ → Prop} : ∀ (as : List Deed) (b : ArrayReader), (∀ r v, .speed v ∈ as → ok r v) → Allowed fp fuel ok b as
  | [], _, _ => trivial
  | .tick _ :: as, _, h => fun _ b' _ => Allowed.always fp fuel as b' fun r v hv => h r v (List.mem_cons_of_mem _ hv)
  | .speed v :: as, _, h => ⟨h _ v (List.mem_cons_self), Allowed.always fp fuel as _ fun r v hv => h r v (List.mem_cons_of_mem _ hv)⟩

/-- Slowing down to a standstill and speeding up again. -/
def exBend : List Deed := [.full, .speed (1 / 4), .full, .speed 0, .full, .speed 1, .full]

/-- The hypotheses of `C72_forward_raw_partial` are met, and so are those of what it says. -/
example : ∃ a' fxs a'' b', exHalf.playRaw sdGeo (some ⟨exBytes, 0, false⟩) (1 : Nat) = .ok (true, a') ∧
    a'.acts Fp.ieee sdGeo true (6 + 1) exBend = .ok (fxs, a'') ∧
    ArrayReader.acts Fp.ieee (6 + 1) ⟨a'.rd, some (samplesOf exBytes)⟩ exBend = .ok (fxs, b') ∧ a''.rd = b'.rd := by
  obtain ⟨a', h1, _, _, _, _, _, _, h⟩ := C72_forward_raw_partial Fp.ieee ieee_representable sdGeo (by decide) (by decide) exHalf
    (m := exBytes) (by unfold IsBytes; decide) (by decide) (by decide) false (nch := 1) (by decide) (by decide) (R := 1) (mm := 1) exHalf_settings rfl
    (by intro h; cases h) (by decide) (by decide) (by decide) true (fuel := 6) (by decide)
  obtain ⟨fxs, a'', b', k1, k2, k3, _⟩ := h exBend (Allowed.always _ _ _ _ fun r v hv => by
    unfold exBend Deed.full at hv
    simp only [List.mem_cons, Deed.speed.injEq, List.not_mem_nil, reduceCtorEq, false_or, or_false] at hv
    rcases hv with rfl | rfl | rfl <;> exact ⟨by norm_num, by norm_num⟩)
  exact ⟨a', fxs, a'', b', h1, k1, k2, k3⟩

/-- Backwards, slower at once. -/
example : ∃ a' fxs a'' b', exMinusHalf.playRaw sdGeo (some ⟨exBytes, 0, false⟩) (1 : Nat) = .ok (true, a') ∧
    a'.acts Fp.ieee sdGeo true (6 + 1) [.speed (-1 / 4), .full] = .ok (fxs, a'') ∧
    ArrayReader.acts Fp.ieee (6 + 1) ⟨a'.rd, some (samplesOf exBytes)⟩ [.speed (-1 / 4), .full] = .ok (fxs, b') ∧ a''.rd = b'.rd := by
  obtain ⟨a', h1, _, _, _, h5, _, _, h⟩ := C72_back_raw_partial Fp.ieee ieee_representable sdGeo (by decide) (by decide) exMinusHalf
    (m := exBytes) (by unfold IsBytes; decide) (by decide) false (nch := 1) (by decide) (by decide) (R := 1) (mm := 1) exMinusHalf_settings rfl
    (P := 9) (by show (9 : Int) = _; decide) ⟨by decide, by decide, by decide, by decide⟩ (by decide) (by decide) (by decide) true (fuel := 6) (by decide)
  have h0 : a'.rd.header = 0 := by
    have : (exMinusHalf.playRaw sdGeo (some ⟨exBytes, 0, false⟩) (1 : Nat)).map (fun x => x.2.rd.header) = .ok 0 := by decide +kernel
    rw [h1] at this
    injection this
  obtain ⟨fxs, a'', b', k1, k2, k3, _⟩ := h [.speed (-1 / 4), .full]
    ⟨⟨by decide +kernel, by norm_num, fun _ => by show a'.rd.header < a'.rd.pos1; rw [h0, h5]; decide⟩, fun _ _ _ => trivial⟩
  exact ⟨a', fxs, a'', b', h1, k1, k2, k3⟩

/-- With cubic interpolation. -/
example : ∃ a' fxs a'' b', exSmooth.playRaw sdGeo (some ⟨exBytes, 0, false⟩) (1 : Nat) = .ok (true, a') ∧
    a'.acts Fp.ieee sdGeo true (6 + 1) exBend = .ok (fxs, a'') ∧
    ArrayReader.acts Fp.ieee (6 + 1) ⟨a'.rd, some (samplesOf exBytes)⟩ exBend = .ok (fxs, b') ∧ a''.rd = b'.rd := by
  obtain ⟨a', h1, _, _, _, _, _, _, _, h⟩ := C72_smooth_raw_partial Fp.ieee ieee_representable sdGeo (by decide) (by decide) exSmooth
    (m := exBytes) (by unfold IsBytes; decide) (by decide) (by decide) false (nch := 1) (by decide) (by decide) (R := 1) (mm := 1) exSmooth_settings
    (by decide) rfl (by intro h; cases h) (by decide) (by decide) (by decide) true (fuel := 6) (by decide)
  obtain ⟨fxs, a'', b', k1, k2, k3, _⟩ := h exBend (Allowed.always _ _ _ _ fun r v hv => by
    unfold exBend Deed.full at hv
    simp only [List.mem_cons, Deed.speed.injEq, List.not_mem_nil, reduceCtorEq, false_or, or_false] at hv
    rcases hv with rfl | rfl | rfl <;> exact ⟨by norm_num, by norm_num, fun _ => by norm_num, fun _ h => absurd h (by norm_num)⟩)
  exact ⟨a', fxs, a'', b', h1, k1, k2, k3⟩

/-- A repeated loop. -/
example : ∃ a' fxs a'' b', (exRepeat 20000 7).playRaw sdGeo (some ⟨List.replicate 100000 5, 0, false⟩) (2 : Nat) = .ok (true, a') ∧
    a'.acts Fp.ieee sdGeo true (6 + 2) exBend = .ok (fxs, a'') ∧
    ArrayReader.acts Fp.ieee (6 + 2) ⟨a'.rd, some (samplesOf (List.replicate 100000 5))⟩ exBend = .ok (fxs, b') ∧ a''.rd = b'.rd := by
  obtain ⟨a', h1, _, _, _, _, _, _, _, _, _, h⟩ := C72_loop_raw_partial Fp.ieee ieee_representable sdGeo (by decide) (by decide) (exRepeat 20000 7)
    (m := List.replicate 100000 5) (by intro b hb; rw [(List.mem_replicate.1 hb).2]; decide)
    (by rw [List.length_replicate]; decide) false (nch := 2) (by decide) (by decide) (exRepeat_settings 20000 7) rfl
    ⟨by decide, by decide, by rw [List.length_replicate]; decide, by decide, by decide, Or.inl ⟨by decide, by decide⟩⟩ (mm := 1) (by decide) (by decide)
    (by decide) true (fuel := 6) (by decide)
  obtain ⟨fxs, a'', b', k1, k2, k3, _⟩ := h exBend (Allowed.always _ _ _ _ fun r v hv => by
    unfold exBend Deed.full at hv
    simp only [List.mem_cons, Deed.speed.injEq, List.not_mem_nil, reduceCtorEq, false_or, or_false] at hv
    rcases hv with rfl | rfl | rfl <;> exact ⟨by norm_num, by norm_num⟩)
  exact ⟨a', fxs, a'', b', h1, k1, k2, k3⟩

/-- A loop repeated backwards. -/
example : ∃ a' fxs a'' b', (exRepeatBack 20000 24000).playRaw sdGeo (some ⟨List.replicate 100000 5, 0, false⟩) (2 : Nat) = .ok (true, a') ∧
    a'.acts Fp.ieee sdGeo true (6 + 2) [.speed (-2), .full] = .ok (fxs, a'') ∧
    ArrayReader.acts Fp.ieee (6 + 2) ⟨a'.rd, some (samplesOf (List.replicate 100000 5))⟩ [.speed (-2), .full] = .ok (fxs, b') ∧ a''.rd = b'.rd := by
  obtain ⟨a', h1, _, _, _, h5, _, _, h8, _, _, h⟩ := C72_loop_back_raw_partial Fp.ieee ieee_representable sdGeo (by decide) (by decide)
    (exRepeatBack 20000 24000) (m := List.replicate 100000 5) (by intro b hb; rw [(List.mem_replicate.1 hb).2]; decide)
    (by rw [List.length_replicate]; decide) false (nch := 2) (by decide) (by decide) (exRepeatBack_settings 20000 24000) rfl
    (P := 48000) (by show (48000 : Int) = _; decide)
    ⟨by decide, by decide, by rw [List.length_replicate]; decide, by decide, by rw [List.length_replicate]; decide, by decide, by rw [List.length_replicate]; decide,
      Or.inl ⟨by decide, by decide⟩⟩ (mm := 1) (by decide) (by decide) (by decide) true (fuel := 6) (by decide)
  obtain ⟨fxs, a'', b', k1, k2, k3, _⟩ := h [.speed (-2), .full]
    ⟨⟨by decide +kernel, by norm_num, fun _ => by show a'.rd.header < a'.rd.pos1; rw [h5, h8]; decide⟩, fun _ _ _ => trivial⟩
  exact ⟨a', fxs, a'', b', h1, k1, k2, k3⟩

/-- A ping-pong loop on its way down. -/
example : ∃ a' fxs a'' b', (exPing (-3 / 2) 20000 24000).playRaw sdGeo (some ⟨List.replicate 100000 5, 0, false⟩) (2 : Nat) = .ok (true, a') ∧
    a'.acts Fp.ieee sdGeo true (6 + 2) [.speed (-2), .full] = .ok (fxs, a'') ∧
    ArrayReader.acts Fp.ieee (6 + 2) ⟨a'.rd, some (samplesOf (List.replicate 100000 5))⟩ [.speed (-2), .full] = .ok (fxs, b') ∧ a''.rd = b'.rd := by
  obtain ⟨a', h1, _, _, _, h5, _, _, h8, h9, _, h⟩ := C72_ping_raw_partial Fp.ieee ieee_representable sdGeo (by decide) (by decide)
    (exPing (-3 / 2) 20000 24000) (m := List.replicate 100000 5) (by intro b hb; rw [(List.mem_replicate.1 hb).2]; decide)
    (by rw [List.length_replicate]; decide) false (nch := 2) (by decide) (by decide) (exPing_settings (by decide +kernel) (by norm_num [abs_of_neg]) _ _) rfl (R := 2)
    (P := 48000) (T := 1000) (by unfold StartsPingAt; rw [if_neg (by norm_num [exPing])]; show (48000 : Int) = _; decide) (by unfold TurnsBelowAt; decide)
    ⟨by decide, by decide, by rw [List.length_replicate]; decide, by decide, by decide, ⟨by decide, by rw [List.length_replicate]; decide, by decide⟩,
      fun h => absurd h (by norm_num [exPing]), fun _ => ⟨by decide, by decide, by rw [List.length_replicate]; decide,
        Or.inl ⟨⟨by decide, by decide, 1, by decide, by decide⟩, by decide⟩⟩⟩ true (fuel := 6) (by decide)
  obtain ⟨fxs, a'', b', k1, k2, k3, _⟩ := h [.speed (-2), .full]
    ⟨⟨by decide +kernel, by norm_num [abs_of_neg], by
        show (0 : ℚ) < -2 ↔ 0 < a'.rd.rate
        rw [h9]; norm_num [exPing], fun _ => Or.inl (by show a'.rd.header < a'.rd.pos1; rw [h5, h8]; decide)⟩, fun _ _ _ => trivial⟩
  exact ⟨a', fxs, a'', b', h1, k1, k2, k3⟩

/-! ## Where it fails -/

/-- The number of samples missed by a player with seven blocks of 256 samples that plays a mono file of `len` bytes 1 with the given
settings and goes through the list. -/
def exSpeedMisses (r : Rd) (len : Nat) (as : List Deed) : M (Option Nat) := do
  let (_, a) ← ({ rd := r } : FileReader).playRaw pingGeo (some ⟨List.replicate len 1, 0, false⟩) 1
  let (_, a) ← a.acts Fp.ideal pingGeo true 8 as
  return a.src.map (·.fails)

/-- **C72** is violated by turning round: after three updates forwards and one backwards nothing has been missed, but in the second the
block in front of the position is no longer there; the cache had dropped it and loaded what lay ahead in the old direction. -/
theorem C72_turn_refuted : exSpeedMisses {} 10000 [.full, .full, .full, .speed (-1), .full] = .ok (some 0) ∧
    exSpeedMisses {} 10000 [.full, .full, .full, .speed (-1), .full, .full] = .ok (some 127) := by
  decide +kernel

/-- **C72** is violated by turning round in a long ping-pong loop: the cache goes on loading in the old direction (src/IndexableFile.h:100-109
takes the direction of the last turn it has seen itself), and everything is missed from the second update on. -/
theorem C72_ping_refuted :
    exSpeedMisses { rate := 2, loopType := .pingpong, loopFinish := 4000, playStart := .loop } 10000 [.full, .full, .speed (-2), .full] = .ok (some 0) ∧
    exSpeedMisses { rate := 2, loopType := .pingpong, loopFinish := 4000, playStart := .loop } 10000 [.full, .full, .speed (-2), .full, .full, .full] =
      .ok (some 255) := by
  decide +kernel

/-- **C72** is violated by linear interpolation when the speed is raised above one between two frames: it then reads the frame before the
current one, whose block is gone. -/
theorem C72_linear_refuted :
    exSpeedMisses { rate := 1 / 1024, interp := .linear, playStart := .arbitrary, playbackStart := 256 } 10000 [.full, .full] = .ok (some 0) ∧
    exSpeedMisses { rate := 1 / 1024, interp := .linear, playStart := .arbitrary, playbackStart := 256 } 10000 [.full, .speed 2, .full] = .ok (some 1) := by
  decide +kernel

/-- Playing backwards from frame 256, two updates reach the first frame; then the speed is set again, to what it was. -/
def exRestart : M FileReader := do
  let (_, a) ← ({ rd := { rate := -1, playStart := .arbitrary, playbackStart := 256 } } : FileReader).playRaw pingGeo (some ⟨List.replicate 5000 1, 0, false⟩) 1
  let (_, a) ← a.acts Fp.ideal pingGeo true 8 [.full, .full, .speed (-1)]
  let (_, a) ← a.update Fp.ideal pingGeo true 2 (fun _ => true)
  return a

/-- Evaluates the conditions of `Stuck`. -/
def stuckNow (a : FileReader) : Bool :=
  match a.src with
  | none => false
  | some c => a.rd.playing && decide (Fp.ideal.f.rnd a.rd.rate = -1) && decide (c.loopType = .none) &&
      c.bufs.all (fun b => decide (b.status = .unused ∧ 0 ≤ b.index)) && c.bufs.any (fun b => decide (b.index = 0))

/-- **C72** is violated when the first frame is reached backwards: setting the speed moves the position to the end of the sound (C39), which is
not buffered, and the reload after the next update never returns.  Had the speed been left alone, playback would have ended without a miss. -/
theorem C72_back_refuted :
    exSpeedMisses { rate := -1, playStart := .arbitrary, playbackStart := 256 } 5000 [.full, .full] = .ok (some 0) ∧
    exSpeedMisses { rate := -1, playStart := .arbitrary, playbackStart := 256 } 5000 [.full, .full, .full] = .ok none ∧
    ∃ a, exRestart = .ok a ∧ a.rd.playing = true ∧ ∀ fuel, a.service Fp.ideal pingGeo fuel .reload = .error .hang := by
  refine ⟨by decide +kernel, by decide +kernel, ?_⟩
  have key : exRestart.map stuckNow = .ok true := by decide +kernel
  cases h : exRestart with
  | error e => rw [h] at key; cases key
  | ok a =>
    rw [h] at key
    replace key : stuckNow a = true := by injection key
    unfold stuckNow at key
    cases hs : a.src with
    | none => rw [hs] at key; cases key
    | some c =>
      rw [hs] at key
      simp only [Bool.and_eq_true, decide_eq_true_eq, List.all_eq_true, List.any_eq_true] at key
      obtain ⟨⟨⟨⟨k1, k2⟩, k3⟩, k4⟩, b0, hb0, e0⟩ := key
      refine ⟨a, rfl, k1, fun fuel => ?_⟩
      have hst : Stuck c (Fp.ideal.f.rnd a.rd.rate) :=
        ⟨by rw [k2]; decide, k3, List.ne_nil_of_mem hb0, fun b hb => (k4 b hb).1, b0, hb0, e0⟩
      have := C19_stuck pingGeo c (Fp.ideal.f.rnd a.rd.rate) fuel (fun b hb => (k4 b hb).2) hst
      unfold FileReader.service FileReader.triggerReload
      rw [hs]
      simp only
      rw [this]
      rfl

end TVP
