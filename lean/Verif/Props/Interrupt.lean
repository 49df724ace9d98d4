import Verif.Lemmas.Interrupt
import Verif.Props.Cache

/-!
# Property C21: reads between the steps of a reload
-/

namespace TVP
open Spec

/-- The value of a sample of the file when every buffer labelled with its block is right. -/
theorem serves_block {m : List Nat} {g : Geo} {c : Cache} (hb : IsBytes m) (hm : m.length < 4294967296) {i : Int} (hi : InFile m i)
    (h : ∀ b ∈ c.bufs, b.index = i / g.B → BufOk m g b) :
    (HasBlock c (i / g.B) → (c.get g i).1 = fileSample m i.toNat) ∧ (¬ HasBlock c (i / g.B) → (c.get g i).1 = 0) := by
  -- drop the buffers of other blocks
  have hc : CacheOk m g { c with bufs := c.bufs.filter fun b => decide (b.index = i / g.B), dev := ⟨m, 0, false⟩ } := by
    refine ⟨rfl, fun b hb => ?_⟩
    simp only [List.mem_filter, decide_eq_true_eq] at hb
    exact h b hb.1 hb.2
  have h0 : 0 ≤ i / g.B := Int.ediv_nonneg hi.1 (by exact_mod_cast Nat.zero_le _)
  have e4 : u32 (i / g.B) = i / g.B := u32_of_in ⟨h0, by have := Int.ediv_le_self (g.B : Int) hi.1; have := hi.2; omega⟩
  have hf : (c.bufs.filter fun b => decide (b.index = i / g.B)).find? (Buf.has (i / g.B)) = c.bufs.find? (Buf.has (i / g.B)) := by
    rw [List.find?_filter]
    congr 1
    funext b
    unfold Buf.has
    rw [Bool.eq_iff_iff]
    simp only [decide_eq_true_eq]
    tauto
  have e1 := (c.get_eq g i).1
  have e2 := (({ c with bufs := c.bufs.filter fun b => decide (b.index = i / g.B), dev := ⟨m, 0, false⟩ } : Cache).get_eq g i).1
  rw [e4] at e1 e2
  simp only [hf] at e2
  rw [← e1] at e2
  obtain ⟨k1, k2⟩ := hc.serves hb hm hi
  have hiff : Buffered g { c with bufs := c.bufs.filter fun b => decide (b.index = i / g.B), dev := ⟨m, 0, false⟩ } i ↔ HasBlock c (i / g.B) := by
    unfold Buffered HasBlock
    simp only [List.mem_filter, decide_eq_true_eq]
    constructor
    · rintro ⟨b, ⟨h1, _⟩, h3⟩; exact ⟨b, h1, h3⟩
    · rintro ⟨b, h1, h3⟩; exact ⟨b, ⟨h1, h3.1⟩, h3⟩
  rw [hiff, e2] at k1 k2
  exact ⟨fun h => (k1 h).1, fun h => (k2 h).1⟩

/-- **C21** (never another sample).  At every point of a reload, however often and whatever the audio interrupt reads in
between: a sample of the file is read correctly if its block is buffered and as 0 if not, unless it lies in the block whose
buffer is being overwritten at this moment (`Evicting`). -/
theorem C21_interrupted (g : Geo) {m : List Nat} (hb : IsBytes m) (hm : m.length < 2 ^ 32) {c : Cache} (hc : CacheOk m g c)
    {rate r : ℚ} {ks : List Int} {s : RPhase × Cache} (h : RRun g rate r (.test, c) ks s) {i : Int} (hi : InFile m i)
    (he : ¬ Evicting s (i / g.B)) :
    (HasBlock s.2 (i / g.B) → (s.2.get g i).1 = fileSample m i.toNat) ∧ (¬ HasBlock s.2 (i / g.B) → (s.2.get g i).1 = 0) :=
  serves_block hb (by omega) hi (((RInv.of_ok hc (fun _ => Iff.rfl)).run (by omega) h).right he)

/-- **C21** (undisturbed).  A sample whose block the reload has neither evicted nor loaded (`ks` lists those blocks) is read
at every point exactly as before the reload began. -/
theorem C21_undisturbed (g : Geo) {m : List Nat} (hb : IsBytes m) (hm : m.length < 2 ^ 32) {c : Cache} (hc : CacheOk m g c)
    {rate r : ℚ} {ks : List Int} {s : RPhase × Cache} (h : RRun g rate r (.test, c) ks s) {i : Int} (hi : InFile m i)
    (hk : i / g.B ∉ ks) : (s.2.get g i).1 = (c.get g i).1 := by
  obtain ⟨ha, hh⟩ := h.hasBlock rfl
  have he : ¬ Evicting s (i / g.B) := by
    rintro ⟨hp, b, rest, e, hbi⟩
    unfold Announced at ha
    rcases hp with ⟨j, got, act, hp⟩ | ⟨j, n, act, hp⟩ <;> (rw [hp] at ha; exact hk (hbi ▸ ha.2 b rest e))
  obtain ⟨h1, h2⟩ := C21_interrupted g hb hm hc h hi he
  obtain ⟨k1, k2⟩ := C21_interrupted g hb hm hc (RRun.refl (g := g) (rate := rate) (r := r) _) hi
    (by rintro ⟨⟨_, _, _, h⟩ | ⟨_, _, _, h⟩, _⟩ <;> cases h)
  by_cases hx : HasBlock c (i / g.B)
  · rw [h1 ((hh _ hk).2 hx)]; exact (k1 hx).symm
  · rw [h2 (fun h => hx ((hh _ hk).1 h))]; exact (k2 hx).symm

/-- The steps are those of `triggerReload`: without interrupts they lead to its result. -/
theorem C21_steps_faithful (g : Geo) (fuel : Nat) (c c' : Cache) (rate : ℚ) (h : c.triggerReload g fuel rate = .ok c') :
    ∃ ks, RRun g rate (reloadRate c rate) (.test, c) ks (.done, c') := by
  unfold Cache.triggerReload at h
  obtain ⟨c1, h1, h⟩ := bind_ok_iff'.1 h
  obtain ⟨ks, h2⟩ := run_reloadLoop (rate := rate) fuel c c1 h1
  injection h with h
  rw [← h]
  exact ⟨_, h2.step (.finish c1)⟩

/-- Blocks 0 and 1 buffered, block 1 in use; the reload replaces block 0 by block 2. -/
def exMid : Cache := (({ dev := ⟨exBytes, 0, false⟩ } : Cache).preLoad exGeo 0 true |>.get exGeo 5).2

theorem exMid_ok : CacheOk exBytes exGeo exMid :=
  CacheOk.get (CacheOk.preLoad (m := exBytes) (g := exGeo) (c := { dev := ⟨exBytes, 0, false⟩ }) (by decide) ⟨rfl, fun _ h => (by cases h)⟩ (i := 0) (by decide) true) 5

/-- The point at which the read of block 2 into the front buffer has begun. -/
theorem exMid_run : RRun exGeo 1 1 (.test, exMid) [0, 2] (.fill 8 [9, 0, 10, 1] .move, { exMid with dev := ⟨exBytes, 20, false⟩ }) := by
  have e : exMid.bufs = [⟨0, 0, 8, .unused, [1, 0, 2, 0, 3, 0, 4, 0]⟩, ⟨1, 1, 8, .read, [5, 0, 6, 0, 7, 0, 255, 255]⟩] := by decide +kernel
  have h1 : RStep exGeo 1 1 (.test, exMid) [] (.choose, exMid) := .testYes exMid _ _ e rfl
  have hd : reloadDecide exGeo exMid 1 ⟨0, 0, 8, .unused, [1, 0, 2, 0, 3, 0, 4, 0]⟩ = .ok (some 8, .move) := by decide +kernel
  have h2 := RStep.load (g := exGeo) (rate := 1) (r := 1) exMid _ _ 8 .move e hd
  have h3 := (RRun.one h1).step h2
  have e1 : ((exMid.dev.seek (u32 (2 * u32 (8 - 8 % exGeo.B))).toNat).read (2 * exGeo.B)) = ([9, 0, 10, 1], ⟨exBytes, 20, false⟩) := by decide +kernel
  rw [e1] at h3
  exact h3

/-- Sample 7 is read there as before. -/
example : (({ exMid with dev := ⟨exBytes, 20, false⟩ } : Cache).get exGeo 7).1 = (exMid.get exGeo 7).1 :=
  C21_undisturbed exGeo (by unfold IsBytes exBytes; decide) (by decide) exMid_ok exMid_run (i := 7) (by unfold InFile; decide) (by decide)

/-- The exception is real: a sample of the block being evicted can be read as anything while the read is in progress. -/
theorem C21_evicted_garbage : ∃ s ks, RRun exGeo 1 1 (.test, exMid) ks s ∧ InFile exBytes 1 ∧
    (s.2.get exGeo 1).1 = 266 ∧ fileSample exBytes 1 = 2 :=
  ⟨_, _, exMid_run.step (.filled _ 8 _ .move [1, 0, 2, 0, 3, 0, 4, 0]), by unfold InFile; decide, by decide +kernel, by decide⟩

end TVP
