import Verif.Lemmas.Reload
import Verif.Model.Player
import Verif.FpIEEE

/-!
# Properties C19, C20: servicing a reload returns and stays inside the vector
-/

namespace TVP

/-- The one situation in which a reload request is never finished: playing backwards without a loop, the first block of the
file in the vector, and the last update used none of the buffers (its position was not buffered). -/
def Stuck (c : Cache) (rate : ℚ) : Prop :=
  rate < 0 ∧ c.loopType = .none ∧ c.bufs ≠ [] ∧ (∀ b ∈ c.bufs, b.status = .unused) ∧ ∃ b ∈ c.bufs, b.index = 0

theorem triggerReload_hang_iff {g : Geo} {c : Cache} {rate : ℚ} {fuel : Nat} :
    c.triggerReload g fuel rate = .error .hang ↔ reloadLoop g (reloadRate c rate) fuel c = .error .hang := by
  unfold Cache.triggerReload
  cases reloadLoop g (reloadRate c rate) fuel c with
  | error e => exact ⟨fun h => by cases h; rfl, fun h => by cases h; rfl⟩
  | ok c1 => exact ⟨fun h => (by cases h), fun h => (by cases h)⟩

theorem reloadRate_none {c : Cache} (h : c.loopType = .none) (rate : ℚ) : reloadRate c rate = rate := by
  unfold reloadRate; rw [if_neg]; rw [h]; rintro ⟨h, _⟩; cases h

/-- **C19** (what does hold).  In every cache state with at most `MAX_NUM_BUFFERS` buffers (`C16_bounded`) and block numbers
below `2^31` except the situation `Stuck`, the handler returns, or faults as in C20, after at most one pass per buffer. -/
theorem C19_returns_partial (g : Geo) (c : Cache) (rate : ℚ) (fuel : Nat) (hN : c.bufs.length ≤ g.N)
    (hi : ∀ b ∈ c.bufs, 0 ≤ b.index ∧ b.index ≤ 2147483647) (hs : ¬ Stuck c rate) :
    c.triggerReload g (g.N + fuel + 1) rate ≠ .error .hang := by
  intro h
  rw [triggerReload_hang_iff] at h
  refine reloadLoop_ends (reloadRate c rate) (g.N + fuel) c ?_ hN ?_ h
  · have : frontUnused c.bufs ≤ c.bufs.length := (List.takeWhile_prefix _).length_le
    omega
  · intro hr hl
    rw [reloadRate_none hl] at hr
    by_contra hc
    push Not at hc
    obtain ⟨h1, h2⟩ := hc
    apply hs
    cases hb : c.bufs with
    | nil =>
      exfalso
      unfold reloadLoop at h
      rw [hb] at h
      cases h
    | cons b rest =>
      refine ⟨hr, hl, by rw [hb]; exact List.cons_ne_nil _ _, h1, ?_⟩
      have h3 := h2 b rest hb
      have hbm : b ∈ c.bufs := by rw [hb]; exact List.mem_cons_self
      obtain ⟨k1, x, hx, ex⟩ := minIndex_spec hbm
      have hx0 := hi x hx
      refine ⟨x, hx, ?_⟩
      rw [ex] at h3
      unfold i32 at h3
      omega

/-- **C19** is false in the situation `Stuck`: however long one waits, the handler does not return. -/
theorem C19_stuck (g : Geo) (c : Cache) (rate : ℚ) (fuel : Nat)
    (hi : ∀ b ∈ c.bufs, 0 ≤ b.index) (hs : Stuck c rate) : c.triggerReload g fuel rate = .error .hang := by
  obtain ⟨hr, hl, hne, hu, b0, hb0, e0⟩ := hs
  rw [triggerReload_hang_iff, reloadRate_none hl]
  refine reloadLoop_hangs hr fuel c hl hne hu ?_
  intro b hb
  obtain ⟨k1, x, hx, ex⟩ := minIndex_spec hb
  have h1 := k1 b0 hb0
  have h2 := hi x hx
  have : minIndex b c.bufs = 0 := by omega
  rw [this]
  decide

/-- The buffers of `AudioPlaySdResmp` (src/ResamplingSdReader.h:27): 7 blocks of 2048 samples. -/
def sdGeo : Geo := ⟨11, 7, fun _ => []⟩

/-- A mono file of 15000 samples is started and reversed at once: the position goes to the end of the file, which is not
buffered, and one update later every buffer is unused. -/
def exTurned : M FileReader := do
  let (_, a) ← ({} : FileReader).playRaw sdGeo (some ⟨List.replicate 30000 0, 0, false⟩) 1
  let a := { a with rd := a.rd.setPlaybackRate (-1) }
  let (_, a) ← a.update Fp.ieee sdGeo true 2 (fun _ => true)
  return a

/-- Evaluates the conditions of `Stuck`. -/
def stuckCheck (a : FileReader) : Bool :=
  match a.src with
  | none => false
  | some c => a.rd.playing && decide (Fp.ieee.f.rnd a.rd.rate = -1) && decide (c.loopType = .none) &&
      c.bufs.all (fun b => decide (b.status = .unused ∧ 0 ≤ b.index)) && c.bufs.any (fun b => decide (b.index = 0))

/-- **C19** is violated by an ordinary use of the player: `playRaw`, `setPlaybackRate(-1)`, and the reload request of the
next update is never finished. -/
theorem C19_refuted : ∃ a, exTurned = .ok a ∧ a.rd.playing = true ∧
    ∀ fuel, a.service Fp.ieee sdGeo fuel .reload = .error .hang := by
  have key : exTurned.map stuckCheck = .ok true := by decide +kernel
  cases h : exTurned with
  | error e => rw [h] at key; cases key
  | ok a =>
    rw [h] at key
    replace key : stuckCheck a = true := by injection key
    unfold stuckCheck at key
    cases hs : a.src with
    | none => rw [hs] at key; cases key
    | some c =>
      rw [hs] at key
      simp only [Bool.and_eq_true, decide_eq_true_eq, List.all_eq_true, List.any_eq_true] at key
      obtain ⟨⟨⟨⟨k1, k2⟩, k3⟩, k4⟩, b0, hb0, e0⟩ := key
      refine ⟨a, rfl, k1, fun fuel => ?_⟩
      have hst : Stuck c (Fp.ieee.f.rnd a.rd.rate) :=
        ⟨by rw [k2]; decide, k3, List.ne_nil_of_mem hb0, fun b hb => (k4 b hb).1, b0, hb0, e0⟩
      have := C19_stuck sdGeo c (Fp.ieee.f.rnd a.rd.rate) fuel (fun b hb => (k4 b hb).2) hst
      unfold FileReader.service FileReader.triggerReload
      rw [hs]
      simp only
      rw [this]
      rfl

/-- Reverse playback with the first block in use: one pass. -/
def exLow : Cache := ⟨[⟨0, 1, 8, .unused, []⟩, ⟨1, 0, 8, .read, []⟩], ⟨List.replicate 16 0, 0, false⟩, 0, -1, .none, 0, 0⟩

example : exLow.triggerReload ⟨2, 2, fun _ => []⟩ (2 + 0 + 1) (-1) ≠ .error .hang :=
  C19_returns_partial ⟨2, 2, fun _ => []⟩ exLow (-1) 0 (by decide) (by decide)
    (by rintro ⟨_, _, _, h, _⟩; exact absurd (h ⟨1, 0, 8, .read, []⟩ (by decide)) (by decide))

/-! ## C20 -/

/-- **C20** (what does hold).  Without a loop, or when the vector holds all its buffers, the handler uses only buffers in
the vector. -/
theorem C20_in_bounds_partial (g : Geo) (c : Cache) (rate : ℚ) (fuel : Nat) (h : c.loopType = .none ∨ c.bufs.length = g.N) :
    c.triggerReload g fuel rate ≠ .error .outOfBounds := by
  have := reloadLoop_inBounds (g := g) (reloadRate c rate) fuel c h
  unfold Cache.triggerReload
  cases hc : reloadLoop g (reloadRate c rate) fuel c with
  | error e => rw [hc] at this; intro h; apply this; cases h; rfl
  | ok c1 => intro h; cases h

/-- A mono file of 4096 samples (two blocks), repeated at sixteen times the speed: after the second update the handler
looks for the last of seven buffers, but only three exist. -/
def exShort : M FileReader := do
  let (_, a) ← ({} : FileReader).playRaw sdGeo (some ⟨List.replicate 8192 0, 0, false⟩) 1
  let a := a.setLoopType .repeat
  let a := { a with rd := a.rd.setPlaybackRate 16 }
  let (_, a) ← a.update Fp.ieee sdGeo true 2 (fun _ => true)
  let a ← a.service Fp.ieee sdGeo 8 .reload
  let (_, a) ← a.update Fp.ieee sdGeo true 2 (fun _ => true)
  return a

/-- **C20** is violated: looping a file shorter than the buffers reads outside the vector. -/
theorem C20_refuted : (exShort.map fun a => a.src.map fun c => c.bufs.length) = .ok (some 3) ∧
    (exShort >>= fun a => (a.service Fp.ieee sdGeo 8 .reload).map fun _ => ()) = .error .outOfBounds := by
  decide +kernel

/-- A full vector of two buffers, repeating. -/
example : (⟨[⟨0, 1, 8, .unused, []⟩, ⟨1, 2, 8, .read, []⟩], ⟨List.replicate 16 0, 0, false⟩, 0, 1, .repeat, 1, 2⟩ : Cache).triggerReload
    ⟨2, 2, fun _ => []⟩ 3 1 ≠ .error .outOfBounds := C20_in_bounds_partial _ _ _ _ (Or.inr rfl)

/-- With the last slot missing, whether the handler faults depends on whether it looks there: it does for a loop whose
end the next block is beyond. -/
theorem C20_short_vector (g : Geo) (c : Cache) (fuel : Nat) {rate : ℚ} (hr : 0 ≤ rate) (hp : 0 ≤ c.prevRate) (hl : c.loopType ≠ .none)
    {b : Buf} {rest : List Buf} (hc : c.bufs = b :: rest) (hu : b.status = .unused) (hN : c.bufs.length < g.N)
    (he : c.loopFinishBlk < i32 (maxIndex b c.bufs + 1)) : c.triggerReload g (fuel + 1) rate = .error .outOfBounds := by
  have hrate : reloadRate c rate = rate := by
    unfold reloadRate
    rw [if_neg]
    rintro ⟨_, ⟨_, h⟩ | ⟨h, _⟩⟩
    · exact absurd hp (not_le.2 h)
    · exact absurd hr (not_le.2 h)
  have hls : lastSlot g c.bufs = .error .outOfBounds := by
    unfold lastSlot
    rw [List.getElem?_eq_none (by omega)]
  have hd : reloadDecide g c rate b = .error .outOfBounds := by
    unfold reloadDecide
    rw [if_pos hr, hls]
    cases h : c.loopType with
    | none => exact absurd h hl
    | «repeat» => simp only; rw [if_pos he]; rfl
    | pingpong => simp only; rw [if_pos he]; rfl
  unfold Cache.triggerReload
  rw [hrate]
  unfold reloadLoop
  split
  · rename_i e; rw [hc] at e; cases e
  · rename_i b' rest' e
    rw [hc] at e
    cases e
    rw [if_pos hu, hd]
    rfl

end TVP
