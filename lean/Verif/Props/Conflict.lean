import Verif.Lemmas.Conflict

/-!
# C52: player calls and the audio interrupt do not conflict

The state is that of `Verif.Model.Conflict`; `Interrupted` allows any number of updates between any two steps of the calls, with
any outcome of the block allocations.
-/

namespace TVP

/-- C52 (file players).  Whatever calls the main program makes on a file player (any readers' buffer geometry `g`, with or
without a null check), at every point of every call, however often it was interrupted before: an update that comes now
never uses a deleted source, one that is being changed, or a null pointer. -/
theorem C52_files (fp : Fp) (g : Geo) (nullOk : Bool) (calls : List FileCall) {p : Prog Cache} {sh : Shared Cache}
    (h : Interrupted fp (fileSrc g nullOk) (session (calls.map (·.steps g)), {}) (p, sh)) (fuel : Nat) (alloc : Nat → Bool) :
    sh.update fp (fileSrc g nullOk) fuel alloc ≠ .error .useAfterFree ∧
      sh.update fp (fileSrc g nullOk) fuel alloc ≠ .error .nullDeref := by
  have hT := fileSrc_sound g nullOk
  have hs : (session (calls.map (·.steps g))).Safe fp (fileSrc g nullOk) := by
    refine safe_session hT ?_
    intro q hq
    obtain ⟨c, _, rfl⟩ := List.mem_map.1 hq
    exact fileCall_safe hT c
  have hg := (hs {} (.inr ⟨rfl, rfl⟩) p sh h).1
  exact ⟨update_safe hT hg fuel alloc (.inr rfl), update_safe hT hg fuel alloc (.inl rfl)⟩

/-- C52 (array players). -/
theorem C52_arrays (fp : Fp) (calls : List ArrayCall) {p : Prog (List Int)} {sh : Shared (List Int)}
    (h : Interrupted fp arraySrc (session (calls.map (·.steps)), {}) (p, sh)) (fuel : Nat) (alloc : Nat → Bool) :
    sh.update fp arraySrc fuel alloc ≠ .error .useAfterFree ∧ sh.update fp arraySrc fuel alloc ≠ .error .nullDeref := by
  have hT := arraySrc_sound
  have hs : (session (calls.map (·.steps))).Safe fp arraySrc := by
    refine safe_session hT ?_
    intro q hq
    obtain ⟨c, _, rfl⟩ := List.mem_map.1 hq
    exact arrayCall_safe hT c
  have hg := (hs {} (.inr ⟨rfl, rfl⟩) p sh h).1
  exact ⟨update_safe hT hg fuel alloc (.inr rfl), update_safe hT hg fuel alloc (.inl rfl)⟩

/-- C52: an interrupted `playRaw` or `playWav` of a file player does what it does uninterrupted: its outcome is that of
`FileReader.playFile` on the state the updates before it left, and whatever else the interrupts did they did after it. -/
theorem C52_start (fp : Fp) (g : Geo) (nullOk : Bool) (a : FileReader) (ha : a.rd.playing = true → a.src ≠ none)
    (file : Option Dev) (junk : List Nat) (isWave : Bool) (n : Int) {b : Bool} {sh : Shared Cache}
    (h : Interrupted fp (fileSrc g nullOk) (playFileSteps g file junk isWave n, a.shared) (.done b, sh)) :
    ∃ a0 a1 : FileReader, Updates fp (fileSrc g nullOk) a.shared a0.shared ∧
      FileReader.playFile g { a0 with rd := a0.rd.stop } file junk isWave n = .ok (b, a1) ∧
      Updates fp (fileSrc g nullOk) a1.shared sh := by
  have hT := fileSrc_sound g nullOk
  have hs : a.shared.Settled := by
    unfold FileReader.shared
    cases hsrc : a.src with
    | some c => exact .inl ⟨c, rfl⟩
    | none =>
      refine .inr ⟨rfl, ?_⟩
      cases hp : a.rd.playing with
      | false => rfl
      | true => exact absurd hsrc (ha hp)
  obtain ⟨k, hk, hq⟩ := stopsFirst_playFile g file junk isWave n
  obtain ⟨sh0, sh1, h1, h2, h3⟩ := Prog.Stage.exec hT hq h (.inl ⟨hk, hs⟩) b rfl
  obtain ⟨a0, rfl⟩ := FileReader.shared_of_settled (updates_settled hT h1 hs)
  refine ⟨a0, ?_⟩
  simp only at h2
  rw [exec_playFile] at h2
  obtain ⟨⟨b', a1⟩, h4, h2⟩ := bind_ok_iff.1 h2
  cases h2
  exact ⟨a1, h1, h4, h3⟩

/-- C52: the same for `playRaw` of an array player. -/
theorem C52_start_array (fp : Fp) (a : ArrayReader) (ha : a.rd.playing = true → a.src ≠ none)
    (data : List Int) (len n : Int) {b : Bool} {sh : Shared (List Int)}
    (h : Interrupted fp arraySrc (playArraySteps data len n, a.shared) (.done b, sh)) :
    ∃ a0 : ArrayReader, Updates fp arraySrc a.shared a0.shared ∧
      b = (ArrayReader.playRaw { a0 with rd := a0.rd.stop } data len n).1 ∧
      Updates fp arraySrc (ArrayReader.playRaw { a0 with rd := a0.rd.stop } data len n).2.shared sh := by
  have hT := arraySrc_sound
  have hs : a.shared.Settled := by
    unfold ArrayReader.shared
    cases hsrc : a.src with
    | some c => exact .inl ⟨c, rfl⟩
    | none =>
      refine .inr ⟨rfl, ?_⟩
      cases hp : a.rd.playing with
      | false => rfl
      | true => exact absurd hsrc (ha hp)
  obtain ⟨k, hk, hq⟩ := stopsFirst_playArray data len n
  obtain ⟨sh0, sh1, h1, h2, h3⟩ := Prog.Stage.exec hT hq h (.inl ⟨hk, hs⟩) b rfl
  obtain ⟨a0, rfl⟩ := ArrayReader.shared_of_settled (updates_settled hT h1 hs)
  simp only at h2
  rw [exec_playArray] at h2
  cases h2
  exact ⟨a0, h1, rfl, h3⟩

/-- C52: an update between two calls is the player's update on its reader (so that `C52_files` speaks about the same
`update()` as the other properties). -/
theorem C52_update (fp : Fp) (g : Geo) (nullOk : Bool) (a : FileReader) (fuel : Nat) (alloc : Nat → Bool) :
    a.shared.update fp (fileSrc g nullOk) fuel alloc =
      (a.update fp g nullOk fuel alloc >>= fun x => .ok (x.1, x.2.shared)) :=
  FileReader.update_shared g nullOk a fuel alloc

/-! ### The hypotheses can be met, and the faults excluded can happen -/

/-- A player that plays a raw file of 300 samples. -/
private def demoGeo : Geo := ⟨7, 2, fun _ => List.replicate 256 0⟩
private def demoFile : Dev := { bytes := List.replicate 600 7 }
private def demoPlaying : M (Bool × Shared Cache) :=
  (playFileSteps demoGeo (some demoFile) [] false 1).exec {}

/-- The premise of `C52_files`: the end of a session of four calls, with the player playing. -/
example : ∃ sh, Interrupted Fp.ideal (fileSrc demoGeo false)
    (session ([.playRaw (some demoFile) 1, .set (·.setDual true) (fun _ => rfl), .close, .playRaw (some demoFile) 2].map
      (FileCall.steps demoGeo)), {}) (.done true, sh) ∧ sh.rd.playing = true := by
  have h : ((session ([.playRaw (some demoFile) 1, .set (·.setDual true) (fun _ => rfl), .close, .playRaw (some demoFile) 2].map
      (FileCall.steps demoGeo))).exec {}).map (fun x => (x.1, x.2.rd.playing)) = .ok (true, true) := by decide +kernel
  cases he : (session ([.playRaw (some demoFile) 1, .set (·.setDual true) (fun _ => rfl), .close, .playRaw (some demoFile) 2].map
      (FileCall.steps demoGeo))).exec {} with
  | error e => rw [he] at h; cases h
  | ok x =>
    rw [he] at h
    obtain ⟨b, sh⟩ := x
    obtain ⟨rfl, h2⟩ : b = true ∧ sh.rd.playing = true := by
      have : (b, sh.rd.playing) = (true, true) := Except.ok.inj h
      exact ⟨congrArg Prod.fst this, congrArg Prod.snd this⟩
    exact ⟨sh, steps_exec he, h2⟩

/-- The premise of `C52_arrays` and `C52_start_array`. -/
example : ∃ sh, Interrupted Fp.ideal arraySrc (playArraySteps [1, 2, 3] 3 1, ArrayReader.shared {}) (.done true, sh) :=
  ⟨_, steps_exec (exec_playArray {} [1, 2, 3] 3 1)⟩

/-- The premise of `C52_start` with a start that fails, and with one that succeeds. -/
example : ∃ sh, Interrupted Fp.ideal (fileSrc demoGeo false) (playFileSteps demoGeo none [] true 0, FileReader.shared {}) (.done false, sh) :=
  ⟨_, steps_exec (exec_playFile demoGeo {} none [] true 0)⟩

/-- If `close` deleted the source before stopping, an update in between would use it after it has been deleted. -/
example : (do
    let (_, sh) ← demoPlaying
    let (fx, _) ← Shared.update Fp.ideal (fileSrc demoGeo false) 5 { sh with obj := .freed } (fun _ => true)
    return fx) = .error .useAfterFree := by decide +kernel

/-- Between two calls that player's update is fine. -/
example : (do
    let (_, sh) ← demoPlaying
    let (fx, _) ← Shared.update Fp.ideal (fileSrc demoGeo false) 5 sh (fun _ => true)
    return (fx.transmitted.length, fx.event)) = .ok (2, some .reload) := by decide +kernel

/-- The array reader itself sets its pointer before it stops: without the player's own `stop()` an update between the two
would play the new array with the old sound's position. -/
example : (do
    let (_, sh) ← (playArraySteps (List.replicate 500 1) 500 1).exec (ArrayReader.shared {})
    let (_, sh) ← Shared.update Fp.ideal arraySrc 5 sh (fun _ => true)
    let (fx, _) ← Shared.update Fp.ideal arraySrc 5 { sh with obj := .live [1, 2, 3] } (fun _ => true)
    return fx) = .error .outOfBounds := by decide +kernel

end TVP
