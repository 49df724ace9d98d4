import Verif.Props.EndToEnd

/-!
# Properties C45-C50: what a player does at an update, and how playback ends
-/

namespace TVP
open Spec

/-! ## One update -/

/-- The four outcomes of an update that returns. -/
theorem update_cases {ρ : Type} {nch : Int} {playing : Bool} {rd : M (List (List Int) × ρ)} {st st' : ρ} {alloc : Nat → Bool} {fx : Fx}
    (h : update nch playing rd st alloc = .ok (fx, st')) :
    (nch = -1 ∧ fx = {} ∧ st' = st) ∨ (0 ≤ nch ∧ playing = false ∧ fx = {} ∧ st' = st) ∨
    (0 ≤ nch ∧ playing = true ∧ ((List.range nch.toNat).filter alloc).length = (List.range nch.toNat).length ∧
      ∃ frames, rd = .ok (frames, st') ∧ fx = fxOf nch frames alloc) ∨
    (0 ≤ nch ∧ playing = true ∧ ((List.range nch.toNat).filter alloc).length ≠ (List.range nch.toNat).length ∧ st' = st ∧
      fx = { allocated := (List.range nch.toNat).filter alloc, released := (List.range nch.toNat).filter alloc }) := by
  unfold update at h
  by_cases h1 : nch = -1
  · rw [if_pos h1] at h; cases h; exact Or.inl ⟨h1, rfl, rfl⟩
  rw [if_neg h1] at h
  by_cases h2 : nch < 0
  · rw [if_pos h2] at h; cases h
  rw [if_neg h2] at h
  cases playing with
  | false => cases h; exact Or.inr (Or.inl ⟨by omega, rfl, rfl, rfl⟩)
  | true =>
    simp only [Bool.not_true, Bool.false_eq_true, if_false] at h
    by_cases h3 : ((List.range nch.toNat).filter alloc).length = (List.range nch.toNat).length
    · simp only [h3, if_true] at h
      refine Or.inr (Or.inr (Or.inl ⟨by omega, rfl, h3, ?_⟩))
      change (rd >>= _) = _ at h
      obtain ⟨⟨frames, st2⟩, hrd, h⟩ := bind_ok_iff.1 h
      simp only [pure_eq_ok, Except.ok.injEq, Prod.mk.injEq] at h
      obtain ⟨rfl, rfl⟩ := h
      refine ⟨frames, hrd, ?_⟩
      unfold fxOf
      split <;> simp
    · simp only [h3, if_false] at h
      cases h
      exact Or.inr (Or.inr (Or.inr ⟨by omega, rfl, h3, rfl, rfl⟩))

/-- **C45**.  Whenever all blocks can be allocated, an update of a playing player sends exactly one block of 128 samples per
channel to the output of that number, and with one channel the same block to output 1; sample `t` of channel `ch` is that of the
`t`-th frame read, and 0 behind the frames read.  For every reader (`rd` is its `read`), whatever it delivers. -/
theorem C45_transmits {ρ : Type} {nch : Nat} (hn : 1 ≤ nch) (rd : M (List (List Int) × ρ)) (st st' : ρ) {frames : List (List Int)}
    (hrd : rd = .ok (frames, st')) (hlen : frames.length ≤ 128) (alloc : Nat → Bool) (hal : ∀ ch < nch, alloc ch = true) :
    ∃ fx, update nch true rd st alloc = .ok (fx, st') ∧
      fx.transmitted.map Prod.snd = (if nch = 1 then [0, 1] else List.range nch) ∧
      ∀ x ∈ fx.transmitted, x.1.length = 128 ∧
        ∀ t < 128, x.1.getD t 0 = if t < frames.length then (frames.getD t []).getD (if nch = 1 then 0 else x.2) 0 else 0 := by
  have hb : ∀ ch, (blockOf frames ch).length = 128 ∧
      ∀ t < 128, (blockOf frames ch).getD t 0 = if t < frames.length then (frames.getD t []).getD ch 0 else 0 := by
    intro ch
    refine ⟨by unfold blockOf blockSamples; simp; omega, fun t ht => ?_⟩
    unfold blockOf blockSamples
    rw [List.getD_eq_getElem?_getD]
    split
    · rename_i h
      rw [List.getElem?_append_left (by simpa using h), List.getElem?_map, List.getD_eq_getElem?_getD (l := frames),
        List.getElem?_eq_getElem h]
      rfl
    · rename_i h
      rw [List.getElem?_append_right (by simp; omega), List.getElem?_replicate]
      split <;> rfl
  have hnn : (nch : Int).toNat = nch := by omega
  refine ⟨_, by rw [update_on (by omega) rd st alloc (by rw [hnn]; exact filter_range_all.2 hal), hrd]; rfl, ?_, ?_⟩
  · unfold fxOf
    simp only [hnn]
    by_cases h1 : nch = 1
    · subst h1; rfl
    · rw [if_neg (by omega), if_neg h1, List.append_nil, List.map_map]
      exact List.map_id _
  · intro x hx
    unfold fxOf at hx
    simp only [hnn, List.mem_append, List.mem_map, List.mem_range] at hx
    by_cases h1 : nch = 1
    · subst h1
      simp only [if_true]
      rcases hx with ⟨ch, hch, rfl⟩ | hx
      · obtain rfl : ch = 0 := by omega
        exact hb 0
      · simp only [Nat.cast_one, if_true, List.mem_singleton] at hx
        rw [hx]; exact hb 0
    · rw [if_neg (by omega : ¬ (nch : Int) = 1)] at hx
      simp only [List.not_mem_nil, or_false] at hx
      obtain ⟨ch, hch, rfl⟩ := hx
      rw [if_neg h1]
      exact hb ch

/-- `read` of a file player never delivers more than the block takes, so C45 applies to it. -/
theorem C45_file (fp : Fp) (g : Geo) (nullOk : Bool) (fuel : Nat) (a a' : FileReader) {frames : List (List Int)}
    (h : a.read fp g nullOk fuel blockSamples = .ok (frames, a')) : frames.length ≤ 128 := by
  unfold FileReader.read at h
  obtain ⟨o, ho, h⟩ := bind_ok_iff.1 h
  cases h
  exact (C23_count_and_alignment fp _ fuel _ _ _ o ho).1

theorem C45_array (fp : Fp) (fuel : Nat) (a a' : ArrayReader) {frames : List (List Int)}
    (h : a.read fp fuel blockSamples = .ok (frames, a')) : frames.length ≤ 128 := by
  unfold ArrayReader.read at h
  obtain ⟨o, ho, h⟩ := bind_ok_iff.1 h
  cases h
  exact (C23_count_and_alignment fp _ fuel _ _ _ o ho).1

example : ∃ fx, update (2 : Nat) true (.ok ([[1, 2], [3, 4]], ())) () (fun _ => true) = .ok (fx, ()) ∧
    fx.transmitted.map Prod.snd = [0, 1] ∧ ∀ x ∈ fx.transmitted, x.1.length = 128 ∧
      ∀ t < 128, x.1.getD t 0 = if t < 2 then ([[1, 2], [3, 4]].getD t []).getD x.2 0 else 0 :=
  C45_transmits (nch := 2) (by decide) _ () () rfl (by decide) _ (by simp)

/-- **C46**.  Whatever allocations fail and whatever the reader does, an update that returns has released every block it
allocated exactly once and nothing else, allocated at most one block per channel, and sent only blocks it had. -/
theorem C46_no_leaks {ρ : Type} (nch : Int) (playing : Bool) (rd : M (List (List Int) × ρ)) (st st' : ρ) (alloc : Nat → Bool) (fx : Fx)
    (h : update nch playing rd st alloc = .ok (fx, st')) :
    (∀ b, fx.released.count b = fx.allocated.count b ∧ fx.allocated.count b ≤ 1) ∧ (∀ b ∈ fx.allocated, (b : Int) < nch ∧ alloc b = true) ∧
      ∀ x ∈ fx.transmitted, (if nch = 1 then 0 else x.2) ∈ fx.allocated := by
  have hcount : ∀ b, ((List.range nch.toNat).filter alloc).count b ≤ 1 := fun b =>
    List.nodup_iff_count_le_one.1 (List.Nodup.filter _ List.nodup_range) b
  have hmem : ∀ b ∈ (List.range nch.toNat).filter alloc, (b : Int) < nch ∧ alloc b = true := by
    intro b hb
    rw [List.mem_filter, List.mem_range] at hb
    exact ⟨by omega, hb.2⟩
  rcases update_cases h with ⟨_, rfl, _⟩ | ⟨_, _, rfl, _⟩ | ⟨h0, _, hall, frames, _, rfl⟩ | ⟨_, _, _, _, rfl⟩
  · simp
  · simp
  · refine ⟨fun b => ⟨rfl, hcount b⟩, hmem, fun x hx => ?_⟩
    unfold fxOf at hx ⊢
    simp only at hx ⊢
    have hal := filter_range_all.1 hall
    have hin : ∀ ch, ch < nch.toNat → ch ∈ (List.range nch.toNat).filter alloc := fun ch hch => by
      rw [List.mem_filter, List.mem_range]; exact ⟨hch, hal ch hch⟩
    by_cases h1 : nch = 1
    · rw [if_pos h1]; exact hin 0 (by omega)
    · rw [if_neg h1, List.append_nil] at hx
      rw [if_neg h1]
      simp only [List.mem_map, List.mem_range] at hx
      obtain ⟨ch, hch, rfl⟩ := hx
      exact hin ch hch
  · exact ⟨fun b => ⟨rfl, hcount b⟩, hmem, by simp⟩

example : ∃ fx, update (3 : Nat) true (.error .hang : M (List (List Int) × Unit)) () (fun c => c != 1) = .ok (fx, ()) ∧ fx.allocated = [0, 2] ∧
    fx.released = [0, 2] ∧ fx.transmitted = [] := ⟨_, rfl, rfl, rfl, rfl⟩

/-- **C47**.  An update raises a reload event if it read a full block, a close event if it read less; and nothing if the player
is not playing, has no channel count yet, or did not get all its blocks. -/
theorem C47_event {ρ : Type} (nch : Int) (playing : Bool) (rd : M (List (List Int) × ρ)) (st st' : ρ) (alloc : Nat → Bool) (fx : Fx)
    (h : update nch playing rd st alloc = .ok (fx, st')) :
    ((playing = false ∨ nch = -1 ∨ ∃ ch : Nat, (ch : Int) < nch ∧ alloc ch = false) ∧ fx.event = none ∧ fx.transmitted = [] ∧ st' = st) ∨
    (playing = true ∧ 0 ≤ nch ∧ (∀ ch : Nat, (ch : Int) < nch → alloc ch = true) ∧
      ∃ frames, rd = .ok (frames, st') ∧ ((frames.length = 128 ∧ fx.event = some .reload) ∨ (frames.length ≠ 128 ∧ fx.event = some .close))) := by
  rcases update_cases h with ⟨h1, rfl, rfl⟩ | ⟨_, h1, rfl, rfl⟩ | ⟨h0, h1, hall, frames, hrd, rfl⟩ | ⟨h0, h1, hall, rfl, rfl⟩
  · exact Or.inl ⟨Or.inr (Or.inl h1), rfl, rfl, rfl⟩
  · exact Or.inl ⟨Or.inl h1, rfl, rfl, rfl⟩
  · refine Or.inr ⟨h1, h0, fun ch hch => filter_range_all.1 hall ch (by omega), frames, hrd, ?_⟩
    unfold fxOf
    by_cases hl : frames.length = 128
    · exact Or.inl ⟨hl, by simp only; rw [if_pos (by exact hl)]⟩
    · exact Or.inr ⟨hl, by simp only; rw [if_neg (by exact hl)]⟩
  · refine Or.inl ⟨Or.inr (Or.inr ?_), rfl, rfl, rfl⟩
    by_contra hno
    push_neg at hno
    refine hall (filter_range_all.2 fun ch hch => ?_)
    have := hno ch (by omega)
    simpa using this

example : ∃ fx st', exStereo.update Fp.ideal 2 (fun _ => true) = .ok (fx, st') ∧ fx.event = some .close := by
  have h : (exStereo.update Fp.ideal 2 (fun _ => true)).map (fun x => x.1.event) = .ok (some .close) := by decide +kernel
  revert h
  cases exStereo.update Fp.ideal 2 (fun _ => true) with
  | error e => intro h; cases h
  | ok x => intro h; exact ⟨x.1, x.2, rfl, by injection h⟩

/-! ## The end of playback -/

/-- A short read has come to the end of unlooped material. -/
theorem readLoop_short {fp : Fp} {σ} {S : Src σ} {fuel : Nat} : ∀ {n : Nat} {r : Rd} {s : σ} {o : ReadOut σ},
    readLoop fp S fuel n r s = .ok o → o.frames.length < n → o.r.atEnd = true ∧ o.r.loopType = .none
  | 0, r, s, o, h, hl => by omega
  | n + 1, r, s, o, h, hl => by
    rw [readLoop_succ] at h
    obtain ⟨r1, h1, h⟩ := bind_ok_iff.1 h
    obtain ⟨⟨vs, ok, r2, s2⟩, h2, h⟩ := bind_ok_iff.1 h
    obtain ⟨c2, hcase⟩ := readFrame_cases h2
    simp only at h
    rcases hcase with ⟨rfl, _⟩ | ⟨rfl, rfl, e1, e2, rfl, _⟩
    · simp only [if_true] at h
      obtain ⟨r3, h3, h⟩ := bind_ok_iff.1 h
      obtain ⟨o', h4, h⟩ := bind_ok_iff.1 h
      cases h
      change (vs :: o'.frames).length < n + 1 at hl
      rw [List.length_cons] at hl
      exact readLoop_short (o := o') h4 (by omega)
    · simp only [Bool.false_eq_true, if_false] at h
      cases h
      exact ⟨e1, e2⟩

theorem atEnd_single {r : Rd} (h : r.atEnd = true) : r.dual = false := by
  unfold Rd.atEnd at h
  cases hd : r.dual
  · rfl
  · rw [hd] at h; simp at h

/-- At the end `read` gives nothing and leaves the reader at the end. -/
theorem read_ended (fp : Fp) {σ} (S : Src σ) (fuel : Nat) {r : Rd} (s : σ) (n : Nat) (hn : 0 < r.nch) (hl : r.loopType = .none) (he : r.atEnd = true) :
    ∃ r', r.read fp S (fuel + 1) s n = .ok ⟨[], [], r', s⟩ ∧ r'.atEnd = true ∧ r'.loopType = .none ∧ r'.nch = r.nch ∧ r'.playing = r.playing := by
  unfold Rd.read
  cases hp : r.playing
  · exact ⟨r, rfl, he, hl, rfl, hp⟩
  · simp only [Bool.not_true, Bool.false_eq_true, if_false]
    rw [if_neg (by omega), if_neg (by omega)]
    cases n with
    | zero => exact ⟨r, rfl, he, hl, rfl, hp⟩
    | succ n =>
      obtain ⟨k, hk⟩ : ∃ k, r.nch.toNat = k + 1 := ⟨r.nch.toNat - 1, by omega⟩
      unfold readLoop
      simp only [atEnd_single he, Bool.false_eq_true, if_false, pure_eq_ok, ok_bind, hk]
      unfold readFrame readChan readNextValue
      simp only [he, if_true, pure_eq_ok, ok_bind, wrapAround, hl, Bool.false_eq_true, if_false]
      exact ⟨{ r with cfOn := false }, by rw [hl], he, hl, rfl, hp⟩

/-- What can happen to a player apart from user calls: updates (at interrupt time) and running its pending event. -/
inductive Happens
  | update (alloc : Nat → Bool)
  | run

def FilePlayer.step (fp : Fp) (g : Geo) (nullOk : Bool) (fuel : Nat) (p : FilePlayer) : Happens → M (List Fx × FilePlayer)
  | .update al => do let (fx, p) ← p.update fp g nullOk fuel al; return ([fx], p)
  | .run => do return ([], ← p.runEvent fp g fuel)

def FilePlayer.steps (fp : Fp) (g : Geo) (nullOk : Bool) (fuel : Nat) : FilePlayer → List Happens → M (List Fx × FilePlayer)
  | p, [] => .ok ([], p)
  | p, x :: xs => do
    let (fxs, p) ← p.step fp g nullOk fuel x
    let (fxs', p) ← FilePlayer.steps fp g nullOk fuel p xs
    return (fxs ++ fxs', p)

/-- At the end of the material with the close event pending, or stopped with none. -/
def Ending (p : FilePlayer) : Prop :=
  (p.rdr.rd.playing = true ∧ p.pending = some .close ∧ 0 < p.rdr.rd.nch ∧ p.rdr.rd.loopType = .none ∧ p.rdr.rd.atEnd = true) ∨
    (p.rdr.rd.playing = false ∧ p.pending = none ∧ 0 < p.rdr.rd.nch)

theorem Ending.step {fp : Fp} {g : Geo} {nullOk : Bool} {fuel : Nat} {p : FilePlayer} (h : Ending p) (x : Happens) :
    ∃ fxs p', p.step fp g nullOk (fuel + 1) x = .ok (fxs, p') ∧ Ending p' ∧ (p.rdr.rd.playing = false → fxs = [{}] ∨ fxs = []) ∧
      (p.rdr.rd.playing = false → p' = p) ∧ (x = .run → p'.rdr.rd.playing = false) ∧
      (∀ fx ∈ fxs, ∀ b ∈ fx.transmitted, ∀ v ∈ b.1, v = 0) := by
  obtain ⟨⟨rd, src⟩, pend⟩ := p
  rcases h with ⟨h1, h2, h3, h4, h5⟩ | ⟨h1, h2, h3⟩
  · simp only at h1 h2 h3 h4 h5
    subst h2
    cases x with
    | run =>
      refine ⟨[], _, rfl, Or.inr ⟨rfl, rfl, h3⟩, fun _ => Or.inr rfl, fun h => ?_, fun _ => rfl, by simp⟩
      simp only at h; rw [h1] at h; cases h
    | update al =>
      unfold FilePlayer.step FilePlayer.update FileReader.update
      simp only [h1]
      by_cases ha : ((List.range rd.nch.toNat).filter al).length = (List.range rd.nch.toNat).length
      · obtain ⟨r', k1, k2, k3, k4, k5⟩ := read_ended fp (fileSrc g nullOk) fuel src blockSamples h3 h4 h5
        rw [update_on h3 _ _ _ ha]
        unfold FileReader.read
        simp only [k1, ok_bind, pure_eq_ok, fxOf, List.length_nil]
        refine ⟨_, _, rfl, Or.inl ⟨by simp only; rw [k5]; exact h1, rfl, by simp only; rw [k4]; exact h3, k3, k2⟩, ?_, ?_, by simp, ?_⟩
        · intro h; cases h
        · intro h; cases h
        · intro fx hfx b hb v hv
          rw [List.mem_singleton] at hfx
          subst hfx
          have hz : ∀ ch, ∀ v ∈ blockOf [] ch, v = 0 := by
            intro ch v hv
            unfold blockOf at hv
            simp only [List.map_nil, List.nil_append] at hv
            exact List.eq_of_mem_replicate hv
          simp only [List.mem_append, List.mem_map] at hb
          rcases hb with ⟨ch, _, rfl⟩ | hb
          · exact hz ch v hv
          · split at hb
            · rw [List.mem_singleton] at hb; subst hb; exact hz 0 v hv
            · cases hb
      · rw [update_short h3 _ _ _ ha]
        refine ⟨_, _, rfl, Or.inl ⟨h1, rfl, h3, h4, h5⟩, ?_, ?_, by simp, by simp⟩
        · intro h; cases h
        · intro h; cases h
  · simp only at h1 h2 h3
    subst h2
    cases x with
    | run => exact ⟨[], _, rfl, Or.inr ⟨h1, rfl, h3⟩, fun _ => Or.inr rfl, fun _ => rfl, fun _ => h1, by simp⟩
    | update al =>
      unfold FilePlayer.step FilePlayer.update FileReader.update
      simp only [h1]
      rw [update_off h3]
      exact ⟨_, _, rfl, Or.inr ⟨h1, rfl, h3⟩, fun _ => Or.inl rfl, fun _ => rfl, by simp, by simp⟩

theorem Ending.steps {fp : Fp} {g : Geo} {nullOk : Bool} {fuel : Nat} : ∀ (xs : List Happens) {p : FilePlayer}, Ending p →
    ∃ fxs p', p.steps fp g nullOk (fuel + 1) xs = .ok (fxs, p') ∧ Ending p' ∧ (p.rdr.rd.playing = false → p' = p) ∧
      (Happens.run ∈ xs → p'.rdr.rd.playing = false) ∧ (∀ fx ∈ fxs, ∀ b ∈ fx.transmitted, ∀ v ∈ b.1, v = 0)
  | [], p, h => ⟨[], p, rfl, h, fun _ => rfl, by simp, by simp⟩
  | x :: xs, p, h => by
    obtain ⟨fx, p1, h1, h2, _, h4, h5, h6⟩ := h.step (fp := fp) (g := g) (nullOk := nullOk) (fuel := fuel) x
    obtain ⟨fxs, p2, k1, k2, k3, k4, k5⟩ := Ending.steps (fp := fp) (g := g) (nullOk := nullOk) (fuel := fuel) xs h2
    refine ⟨fx ++ fxs, p2, ?_, k2, fun h => ?_, fun h => ?_, ?_⟩
    · unfold FilePlayer.steps; simp only [h1, ok_bind, k1]; rfl
    · rw [← h4 h, k3 (by rw [h4 h]; exact h)]
    · rcases List.mem_cons.1 h with rfl | h
      · have := h5 rfl
        rw [k3 this]; exact this
      · exact k4 h
    · intro f hf
      rcases List.mem_append.1 hf with hf | hf
      · exact h6 f hf
      · exact k5 f hf

/-- **C48**.  A file player (any rate, direction, interpolation, even looping settings) makes an update that raises the close
event.  Then, however updates and the running of events follow each other: nothing but silence is sent, nothing faults, as soon as
an event has been run the player is not playing, and it stays so. -/
theorem C48_playback_ends (fp : Fp) (g : Geo) (nullOk : Bool) (fuel : Nat) (p p1 : FilePlayer) (al : Nat → Bool) (fx : Fx)
    (hup : p.update fp g nullOk (fuel + 1) al = .ok (fx, p1)) (hev : fx.event = some .close) (xs : List Happens) :
    ∃ fxs p2, p1.steps fp g nullOk (fuel + 1) xs = .ok (fxs, p2) ∧ (∀ f ∈ fxs, ∀ b ∈ f.transmitted, ∀ v ∈ b.1, v = 0) ∧
      (Happens.run ∈ xs → p2.rdr.rd.playing = false ∧ p2.pending = none) := by
  have hend : Ending p1 := by
    unfold FilePlayer.update at hup
    obtain ⟨⟨fx1, r⟩, h1, hup⟩ := bind_ok_iff.1 hup
    simp only at hup
    unfold FileReader.update at h1
    have hfx : fx1.event = some .close := by
      revert hup
      cases he : fx1.event with
      | none => intro hup; cases hup; rw [he] at hev; cases hev
      | some e => intro hup; cases hup; rw [he] at hev; exact hev
    rw [hfx] at hup
    cases hup
    rcases C47_event _ _ _ _ _ _ _ h1 with ⟨_, k, _⟩ | ⟨k1, k2, _, frames, k3, k4⟩
    · rw [k] at hev; cases hev
    · have hlen := C45_file fp g nullOk (fuel + 1) p.rdr r k3
      unfold FileReader.read at k3
      obtain ⟨o, ho, k3⟩ := bind_ok_iff.1 k3
      have hshort : o.frames.length < 128 := by
        cases k3
        rcases k4 with ⟨_, k⟩ | ⟨k, _⟩
        · rw [k] at hev; cases hev
        · omega
      unfold Rd.read at ho
      rw [k1, if_neg (by decide), if_neg (by omega)] at ho
      split at ho
      · rw [if_neg (by decide)] at ho; cases ho
      · rename_i hn0
        obtain ⟨e1, e2⟩ := readLoop_short ho hshort
        have hc := (readLoop_conf ho).1
        cases k3
        exact Or.inl ⟨by simp only; rw [hc.playing]; exact k1, rfl, by simp only; rw [hc.nch]; omega, e2, e1⟩
  obtain ⟨fxs, p2, h1, h2, _, h4, h5⟩ := hend.steps (fp := fp) (g := g) (nullOk := nullOk) (fuel := fuel) xs
  refine ⟨fxs, p2, h1, h5, fun h => ⟨h4 h, ?_⟩⟩
  rcases h2 with ⟨h, _⟩ | ⟨_, h, _⟩
  · rw [h4 ‹_›] at h; cases h
  · exact h

/-- **C48**, the step before: once the reader is at the end of unlooped material, the next update that gets its blocks raises close. -/
theorem C48_close_is_raised (fp : Fp) (g : Geo) (nullOk : Bool) (fuel : Nat) (p : FilePlayer) (hp : p.rdr.rd.playing = true) (hn : 0 < p.rdr.rd.nch)
    (hl : p.rdr.rd.loopType = .none) (he : p.rdr.rd.atEnd = true) (al : Nat → Bool) (hal : ∀ ch : Nat, (ch : Int) < p.rdr.rd.nch → al ch = true) :
    ∃ fx p1, p.update fp g nullOk (fuel + 1) al = .ok (fx, p1) ∧ fx.event = some .close := by
  obtain ⟨⟨rd, src⟩, pend⟩ := p
  simp only at hp hn hl he hal
  obtain ⟨r', k1, _⟩ := read_ended fp (fileSrc g nullOk) fuel src blockSamples hn hl he
  unfold FilePlayer.update FileReader.update
  simp only [hp]
  rw [update_on hn _ _ _ (filter_range_all.2 fun ch hch => hal ch (by omega))]
  unfold FileReader.read
  simp only [k1, ok_bind, pure_eq_ok, fxOf, List.length_nil]
  exact ⟨_, _, rfl, rfl⟩

/-- Two mono samples in a raw file: the first update sends them and raises close. -/
def exEnd : FilePlayer := ⟨{ rd := { playing := true, nch := 1, fileSamples := 2, loopFinish := 2, fileSize := 4 } }, none⟩
theorem exEnd_closes : ∃ fx p1, exEnd.update Fp.ideal sdGeo true 2 (fun _ => true) = .ok (fx, p1) ∧ fx.event = some .close := by
  have h : (exEnd.update Fp.ideal sdGeo true 2 (fun _ => true)).map (fun x => x.1.event) = .ok (some .close) := by decide +kernel
  revert h
  cases exEnd.update Fp.ideal sdGeo true 2 (fun _ => true) with
  | error e => intro h; cases h
  | ok x => intro h; exact ⟨x.1, x.2, rfl, by injection h⟩

example : ∃ fx p1 fxs p2, exEnd.update Fp.ideal sdGeo true 2 (fun _ => true) = .ok (fx, p1) ∧
    p1.steps Fp.ideal sdGeo true 2 [.update (fun _ => true), .run, .update (fun _ => true)] = .ok (fxs, p2) ∧ p2.rdr.rd.playing = false := by
  obtain ⟨fx, p1, h1, h2⟩ := exEnd_closes
  obtain ⟨fxs, p2, h3, _, h4⟩ := C48_playback_ends _ _ _ 1 _ _ _ _ h1 h2 [.update (fun _ => true), .run, .update (fun _ => true)]
  exact ⟨fx, p1, fxs, p2, h1, h3, (h4 (by simp)).1⟩

/-- The number of updates that got all their blocks. -/
def served (nch : Nat) (als : List (Nat → Bool)) : Nat := (als.filter fun al => decide (∀ ch < nch, al ch = true)).length

theorem soundPlay_none (val : Nat → Nat → Int) (nch : Nat) (F : Int) (x r : ℚ) : ∀ als, (soundPlay val nch F x r none als).2 = none
  | [] => rfl
  | al :: als => by unfold soundPlay soundStep; exact soundPlay_none val nch F x r als

theorem soundPlay_ends (val : Nat → Nat → Int) (nch : Nat) (F : Int) {x r : ℚ} (hr : 0 ≤ r) : ∀ (als : List (Nat → Bool)) (k : Nat), 1 ≤ served nch als →
    F ≤ ⌊x + ((128 * (k + served nch als) - 1 : Nat) : ℚ) * r⌋ → (soundPlay val nch F x r (some k) als).2 = none
  | [], k, h, _ => by simp [served] at h
  | al :: als, k, h, he => by
    unfold soundPlay soundStep
    simp only
    by_cases ha : ∀ ch < nch, al ch = true
    · have hs : served nch (al :: als) = served nch als + 1 := by
        unfold served; rw [List.filter_cons_of_pos (by simpa using ha)]; rfl
      rw [if_pos ha]
      by_cases hlt : ⌊x + ((128 * k + 127 : Nat) : ℚ) * r⌋ < F
      · simp only [if_pos hlt]
        by_cases h0 : served nch als = 0
        · rw [hs, h0] at he
          rw [show 128 * (k + (0 + 1)) - 1 = 128 * k + 127 by omega] at he
          omega
        · exact soundPlay_ends val nch F hr als (k + 1) (by omega) (by rw [hs] at he; rw [show k + 1 + served nch als = k + (served nch als + 1) by omega]; exact he)
      · simp only [if_neg hlt]
        exact soundPlay_none val nch F x r als
    · have hs : served nch (al :: als) = served nch als := by
        unfold served; rw [List.filter_cons_of_neg (by simpa using ha)]
      rw [if_neg ha]
      exact soundPlay_ends val nch F hr als k (by omega) (by rw [hs] at he; exact he)

/-- **C48**, that the end comes.  A WAV file played as in C59 at a positive rate `r`, each event being serviced before the next
update: after `K` updates that got their blocks, where `(128 K - 1) r` frames reach the end of the file, it is not playing. -/
theorem C48_end_comes (fp : Fp) (hfp : Representable fp) (g : Geo) (hB : g.B < 16384) (hNB : g.N * g.B ≤ 2 ^ 30) (a : FileReader) {m : List Nat}
    (hb : IsBytes m) (hm : m.length < 2 ^ 31) (past : Bool) (junk : List Nat) (hj : junk.length = 36) (hg : GoodHeader m)
    (hdep : leVal (slice m 34 2) = 16) {off : Nat} (hda : DataAt m off) (heven : off % 2 = 0) {nch D : Nat} (hn : leVal (slice m 22 2) = nch)
    (hc : 1 ≤ nch) (hc' : nch ≤ 32767) (hD : leVal (slice m (off + 4) 4) = D) (hdata : off + 8 + D ≤ m.length) (hroom : off + 8 < m.length)
    {R mm : Int} (hset : ForwardSettings a.rd R) {p : Nat} (hgrid : GridRate p a.rd.rate) (hrem : OnGrid p a.rd.rem) (hrem0 : 0 ≤ a.rd.rem)
    (hstart : a.rd.playStart = .arbitrary → 0 ≤ a.rd.playbackStart ∧ a.rd.playbackStart ≤ (D / 2 / nch : Nat))
    (hmm0 : 0 ≤ mm) (hmm : 2 * mm + 1 ≤ g.N) (hadv : 128 * (nch * (R + 1)) ≤ mm * g.B) (nullOk : Bool) {fuel : Nat} (hf : g.N ≤ fuel + 2) :
    ∃ a', a.playWav g (some ⟨m, 0, past⟩) junk = .ok (true, a') ∧ ∀ als : List (Nat → Bool), 1 ≤ served nch als →
      ((D / 2 / nch : Nat) : ℚ) ≤ ((128 * served nch als - 1 : Nat) : ℚ) * a.rd.rate →
      ∃ fxs a'', a'.ticks fp g nullOk (fuel + 2) als = .ok (fxs, a'') ∧ a''.rd.playing = false := by
  obtain ⟨a', h1, h2⟩ := C59_end_to_end fp hfp g hB hNB a hb hm past junk hj hg hdep hda heven hn hc hc' hD hdata hroom hset hgrid hrem hrem0 hstart
    hmm0 hmm hadv nullOk hf
  clear hn hD hdep hj
  refine ⟨a', h1, fun als hs hend => ?_⟩
  obtain ⟨a'', k1, k2, _⟩ := h2 als
  refine ⟨_, a'', k1, ?_⟩
  rw [k2, soundPlay_ends _ _ _ hset.rate0 als 0 hs]
  · rfl
  · rw [Int.le_floor]
    rw [Nat.zero_add]
    have h0 : (0 : ℚ) ≤ ((if a.rd.playStart = .arbitrary then a.rd.playbackStart else 0 : Int) : ℚ) := by
      split
      · rename_i e; exact_mod_cast (hstart e).1
      · simp
    refine le_trans ?_ (add_le_add (add_nonneg h0 hrem0) hend)
    rw [zero_add]
    exact le_of_eq (by push_cast; rfl)

/-! ## Array players -/

/-- The updates of an array player, given which allocations succeed in each.  (Nothing else happens to it: no event is run.) -/
def ArrayPlayer.updates (fp : Fp) (fuel : Nat) : ArrayPlayer → List (Nat → Bool) → M (List Fx × ArrayPlayer)
  | p, [] => .ok ([], p)
  | p, al :: als => do
    let (fx, p) ← p.update fp fuel al
    let (fxs, p) ← ArrayPlayer.updates fp fuel p als
    return (fx :: fxs, p)

/-- No update ends array playback, whatever the settings. -/
theorem C49_stays_playing (fp : Fp) (fuel : Nat) : ∀ (als : List (Nat → Bool)) (p p' : ArrayPlayer) (fxs : List Fx),
    p.updates fp fuel als = .ok (fxs, p') → p'.rdr.rd.playing = p.rdr.rd.playing
  | [], p, p', fxs, h => by cases h; rfl
  | al :: als, p, p', fxs, h => by
    unfold ArrayPlayer.updates at h
    obtain ⟨⟨fx, p1⟩, h1, h⟩ := bind_ok_iff.1 h
    obtain ⟨⟨fxs', p2⟩, h2, h⟩ := bind_ok_iff.1 h
    cases h
    rw [C49_stays_playing fp fuel als p1 _ fxs' h2]
    unfold ArrayPlayer.update at h1
    obtain ⟨⟨fx', r⟩, h3, h1⟩ := bind_ok_iff.1 h1
    cases h1
    unfold ArrayReader.update at h3
    rcases update_cases h3 with ⟨_, _, rfl⟩ | ⟨_, _, _, rfl⟩ | ⟨_, _, _, frames, hrd, _⟩ | ⟨_, _, _, rfl, _⟩
    · rfl
    · rfl
    · unfold ArrayReader.read at hrd
      obtain ⟨o, ho, hrd⟩ := bind_ok_iff.1 hrd
      cases hrd
      simp only
      unfold Rd.read at ho
      split at ho
      · cases ho; rfl
      split at ho
      · cases ho
      split at ho
      · split at ho
        · cases ho; rfl
        · cases ho
      · exact (readLoop_conf ho).1.playing
    · rfl

/-- **C49 refuted**, for every array player that has come to its end: after the update that raises the close event, whatever
happens, the updates go on sending silence and the player goes on reporting that it is playing. -/
theorem C49_refuted (fp : Fp) (fuel : Nat) (p p1 : ArrayPlayer) (al : Nat → Bool) (fx : Fx)
    (hup : p.update fp (fuel + 1) al = .ok (fx, p1)) (hev : fx.event = some .close) (als : List (Nat → Bool)) :
    ∃ fxs p2, p1.updates fp (fuel + 1) als = .ok (fxs, p2) ∧ (∀ f ∈ fxs, ∀ b ∈ f.transmitted, ∀ v ∈ b.1, v = 0) ∧ p2.rdr.rd.playing = true := by
  have key : ∀ (als : List (Nat → Bool)) (p : ArrayPlayer), p.rdr.rd.playing = true → 0 < p.rdr.rd.nch → p.rdr.rd.loopType = .none →
      p.rdr.rd.atEnd = true → ∃ fxs p2, p.updates fp (fuel + 1) als = .ok (fxs, p2) ∧ (∀ f ∈ fxs, ∀ b ∈ f.transmitted, ∀ v ∈ b.1, v = 0) ∧
        p2.rdr.rd.playing = true := by
    intro als
    induction als with
    | nil => intro p h _ _ _; exact ⟨[], p, rfl, by simp, h⟩
    | cons al als ih =>
      rintro ⟨⟨rd, src⟩⟩ h1 h2 h3 h4
      simp only at h1 h2 h3 h4
      unfold ArrayPlayer.updates ArrayPlayer.update ArrayReader.update
      simp only [h1]
      by_cases ha : ((List.range rd.nch.toNat).filter al).length = (List.range rd.nch.toNat).length
      · obtain ⟨r', k1, k2, k3, k4, k5⟩ := read_ended fp arraySrc fuel src blockSamples h2 h3 h4
        rw [update_on h2 _ _ _ ha]
        unfold ArrayReader.read
        simp only [k1, ok_bind, pure_eq_ok]
        obtain ⟨fxs, p2, j1, j2, j3⟩ := ih ⟨⟨r', src⟩⟩ (by simp only; rw [k5]; exact h1) (by simp only; rw [k4]; exact h2) k3 k2
        refine ⟨_, p2, by rw [j1]; rfl, ?_, j3⟩
        intro f hf b hb v hv
        rcases List.mem_cons.1 hf with rfl | hf
        · have hz : ∀ ch, ∀ v ∈ blockOf [] ch, v = 0 := by
            intro ch v hv
            unfold blockOf at hv
            simp only [List.map_nil, List.nil_append] at hv
            exact List.eq_of_mem_replicate hv
          unfold fxOf at hb
          simp only [List.mem_append, List.mem_map] at hb
          rcases hb with ⟨ch, _, rfl⟩ | hb
          · exact hz ch v hv
          · split at hb
            · rw [List.mem_singleton] at hb; subst hb; exact hz 0 v hv
            · cases hb
        · exact j2 f hf b hb v hv
      · rw [update_short h2 _ _ _ ha]
        simp only [ok_bind, pure_eq_ok]
        obtain ⟨fxs, p2, j1, j2, j3⟩ := ih ⟨⟨rd, src⟩⟩ h1 h2 h3 h4
        refine ⟨_, p2, by rw [j1]; rfl, ?_, j3⟩
        intro f hf b hb v hv
        rcases List.mem_cons.1 hf with rfl | hf
        · cases hb
        · exact j2 f hf b hb v hv
  unfold ArrayPlayer.update at hup
  obtain ⟨⟨fx1, r⟩, h1, hup⟩ := bind_ok_iff.1 hup
  cases hup
  unfold ArrayReader.update at h1
  rcases C47_event _ _ _ _ _ _ _ h1 with ⟨_, k, _⟩ | ⟨k1, k2, _, frames, k3, k4⟩
  · rw [k] at hev; cases hev
  · have hlen := C45_array fp (fuel + 1) p.rdr r k3
    unfold ArrayReader.read at k3
    obtain ⟨o, ho, k3⟩ := bind_ok_iff.1 k3
    have hshort : o.frames.length < 128 := by
      cases k3
      rcases k4 with ⟨_, k⟩ | ⟨k, _⟩
      · rw [k] at hev; cases hev
      · omega
    unfold Rd.read at ho
    rw [k1, if_neg (by decide), if_neg (by omega)] at ho
    split at ho
    · rw [if_neg (by decide)] at ho; cases ho
    · rename_i hn0
      obtain ⟨e1, e2⟩ := readLoop_short ho hshort
      have hc := (readLoop_conf ho).1
      cases k3
      exact key als _ (by simp only; rw [hc.playing]; exact k1) (by simp only; rw [hc.nch]; omega) e2 e1

/-- Two mono samples in an array. -/
def exArrayEnd : ArrayPlayer := (({} : ArrayPlayer).playRaw [5, 6] 2 1).2

theorem exArrayEnd_closes : ∃ fx p1, exArrayEnd.update Fp.ideal 2 (fun _ => true) = .ok (fx, p1) ∧ fx.event = some .close := by
  have h : (exArrayEnd.update Fp.ideal 2 (fun _ => true)).map (fun x => x.1.event) = .ok (some .close) := by decide +kernel
  revert h
  cases exArrayEnd.update Fp.ideal 2 (fun _ => true) with
  | error e => intro h; cases h
  | ok x => intro h; exact ⟨x.1, x.2, rfl, by injection h⟩

/-- **C49** (the part that holds): after its end the player sends nothing but silence, and once the user calls `stop()` it is not
playing and its updates do nothing.  Missing: it does not stop by itself (`C49_refuted`). -/
theorem C49_silent_partial (fp : Fp) (fuel : Nat) (p p1 : ArrayPlayer) (al : Nat → Bool) (fx : Fx)
    (hup : p.update fp (fuel + 1) al = .ok (fx, p1)) (hev : fx.event = some .close) (als : List (Nat → Bool)) :
    ∃ fxs p2, p1.updates fp (fuel + 1) als = .ok (fxs, p2) ∧ (∀ f ∈ fxs, ∀ b ∈ f.transmitted, ∀ v ∈ b.1, v = 0) ∧
      p2.stop.rdr.rd.playing = false := by
  obtain ⟨fxs, p2, h1, h2, _⟩ := C49_refuted fp fuel p p1 al fx hup hev als
  exact ⟨fxs, p2, h1, h2, rfl⟩

/-- So C49 fails for the simplest use: two samples, any schedule, still playing. -/
example (als : List (Nat → Bool)) : ∃ fxs p2, exArrayEnd.updates Fp.ideal 2 ((fun _ => true) :: als) = .ok (fxs, p2) ∧ p2.rdr.rd.playing = true := by
  obtain ⟨fx, p1, h1, h2⟩ := exArrayEnd_closes
  obtain ⟨fxs, p2, h3, _, h4⟩ := C49_refuted _ 1 _ _ _ _ h1 h2 als
  exact ⟨fx :: fxs, p2, by unfold ArrayPlayer.updates; rw [h1]; simp only [ok_bind, h3]; rfl, h4⟩

/-! ## A start that fails -/

theorem playParseWav_nch {r r' : Rd} {f f' : Dev} {junk : List Nat} {ok : Bool} (h : playParseWav r f junk = .ok (ok, r', f'))
    (hl : 36 ≤ (overlay (f.read 36).1 junk).length) :
    r'.nch = r.nch ∨ r'.nch = (r.setNumChannels (u16 (i16 (leVal (slice (overlay (f.read 36).1 junk) 22 2))))).nch := by
  unfold playParseWav at h
  obtain ⟨⟨ok1, hdr⟩, hh, h⟩ := bind_ok_iff.1 h
  simp only at h
  split at h
  · simp only [pure_eq_ok, Except.ok.injEq, Prod.mk.injEq] at h; rw [← h.2.1]; exact Or.inl rfl
  · rename_i hd
    have hp := depth16_accepted hl hh (by simpa using hd)
    have hnum : hdr.numChannels = i16 (leVal (slice (overlay (f.read 36).1 junk) 22 2)) := by rw [hp.2.1]; rfl
    rw [hnum] at h
    obtain ⟨t, _, h⟩ := bind_ok_iff.1 h
    cases t with
    | none =>
      simp only [pure_eq_ok, Except.ok.injEq, Prod.mk.injEq] at h; rw [← h.2.1]
      exact Or.inr rfl
    | some t =>
      simp only at h
      obtain ⟨⟨ok2, dh⟩, _, h⟩ := bind_ok_iff.1 h
      simp only at h
      split at h
      · simp only [pure_eq_ok, Except.ok.injEq, Prod.mk.injEq] at h; rw [← h.2.1]
        exact Or.inr rfl
      · simp only [pure_eq_ok, Except.ok.injEq, Prod.mk.injEq] at h; rw [← h.2.1]
        exact Or.inr (by simp only)

theorem playFinish_nch {g : Geo} {r : Rd} {f : Dev} {a : FileReader} (h : playFinish g r f = .ok (false, a)) : a.rd.nch = r.nch := by
  unfold playFinish at h
  split at h
  · simp at h; rw [← h]
  · split at h
    · simp at h
    · simp at h

/-- **C50**, the part about the state: whenever `playRaw` or `playWav` of a file player returns false, whatever the player did before
and whatever the file contains, the player is not playing, has no file open and no event pending. -/
theorem C50_not_playing (g : Geo) (p p' : FilePlayer) (file : Option Dev) (junk : List Nat) (n : Int)
    (h : p.playWav g file junk = .ok (false, p') ∨ p.playRaw g file n = .ok (false, p')) :
    p'.rdr.rd.playing = false ∧ p'.rdr.src = none ∧ p'.pending = none := by
  rcases h with h | h
  · unfold FilePlayer.playWav at h
    obtain ⟨⟨ok, r⟩, h1, h⟩ := bind_ok_iff.1 h
    cases h
    exact ⟨(playFile_false h1).1, (playFile_false h1).2, rfl⟩
  · unfold FilePlayer.playRaw at h
    obtain ⟨⟨ok, r⟩, h1, h⟩ := bind_ok_iff.1 h
    cases h
    exact ⟨(playFile_false h1).1, (playFile_false h1).2, rfl⟩

/-- A player that is not playing and has a sensible channel count does nothing at an update. -/
theorem update_idle {ρ : Type} {nch : Int} (hn : -1 ≤ nch) (rd : M (List (List Int) × ρ)) (st : ρ) (alloc : Nat → Bool) :
    update nch false rd st alloc = .ok ({}, st) := by
  unfold update
  by_cases h : nch = -1
  · rw [if_pos h]; rfl
  · rw [if_neg h, if_neg (by omega)]; rfl

/-- **C50** (the part that holds).  After a failed `playWav` every later update does nothing at all, provided the channel count
in the header is below 32768.  Missing: larger ones, for which the update is undefined (`C50_refuted`). -/
theorem C50_wav_partial (fp : Fp) (g : Geo) (nullOk : Bool) (fuel : Nat) (p p' : FilePlayer) (m : List Nat) (past : Bool) (junk : List Nat)
    (hj : junk.length = 36) (hprev : -1 ≤ p.rdr.rd.nch) (hch : leVal (slice (m.take 36 ++ junk.drop m.length) 22 2) < 32768)
    (h : p.playWav g (some ⟨m, 0, past⟩) junk = .ok (false, p')) (al : Nat → Bool) : p'.update fp g nullOk fuel al = .ok ({}, p') := by
  have hst := C50_not_playing g p p' _ junk 0 (Or.inl h)
  have hbuf : overlay (Dev.read ⟨m, 0, past⟩ 36).1 junk = m.take 36 ++ junk.drop m.length := by
    simp only [Dev.read, List.drop_zero, overlay, List.length_take]
    by_cases hm : m.length ≤ 36
    · rw [Nat.min_eq_right hm]
    · rw [List.drop_of_length_le (by omega), List.drop_of_length_le (by omega)]
  have hlen : 36 ≤ (overlay (Dev.read ⟨m, 0, past⟩ 36).1 junk).length := by
    rw [hbuf]; simp; omega
  have hn : -1 ≤ p'.rdr.rd.nch := by
    unfold FilePlayer.playWav FileReader.playWav FileReader.playFile at h
    obtain ⟨⟨ok, r⟩, h1, h⟩ := bind_ok_iff.1 h
    cases h
    simp only [if_true] at h1
    obtain ⟨⟨ok, r1, f'⟩, hp, h1⟩ := bind_ok_iff.1 h1
    have hnch : -1 ≤ r1.nch := by
      rcases playParseWav_nch hp hlen with e | e
      · rw [e]; exact hprev
      · rw [e, hbuf]
        generalize leVal (slice (m.take 36 ++ junk.drop m.length) 22 2) = v at hch
        have e2 : u16 (i16 (v : Int)) = v := by unfold u16 i16; omega
        rw [e2, setNumChannels_nch_small _ (by omega) (by omega)]
        omega
    simp only at h1
    cases ok with
    | false => simp at h1; rw [← h1]; exact hnch
    | true => rw [playFinish_nch (by simpa using h1)]; exact hnch
  obtain ⟨⟨rd, src⟩, pend⟩ := p'
  unfold FilePlayer.update FileReader.update
  simp only at hst hn ⊢
  rw [hst.1, update_idle hn]
  rfl

/-- The same for a raw file, and for a file that cannot be opened. -/
theorem C50_raw_partial (fp : Fp) (g : Geo) (nullOk : Bool) (fuel : Nat) (p p' : FilePlayer) (file : Option Dev) (n : Int) (h0 : 0 ≤ n) (h1 : n < 32768)
    (h : p.playRaw g file n = .ok (false, p')) (al : Nat → Bool) : p'.update fp g nullOk fuel al = .ok ({}, p') := by
  have hst := C50_not_playing g p p' file [] n (Or.inr h)
  have hn : -1 ≤ p'.rdr.rd.nch := by
    unfold FilePlayer.playRaw FileReader.playRaw FileReader.playFile at h
    obtain ⟨⟨ok, r⟩, h2, h⟩ := bind_ok_iff.1 h
    cases h
    have hs : ∀ r : Rd, -1 ≤ (r.setNumChannels n).nch := fun r => by rw [setNumChannels_nch_small r h0 h1]; omega
    cases file with
    | none => simp at h2; rw [← h2]; exact hs _
    | some f =>
      simp only [Bool.false_eq_true, if_false] at h2
      rw [playFinish_nch h2]; simp only; exact hs _
  obtain ⟨⟨rd, src⟩, pend⟩ := p'
  unfold FilePlayer.update FileReader.update
  simp only at hst hn ⊢
  rw [hst.1, update_idle hn]
  rfl

/-- A missing WAV file leaves the channel count as it was. -/
theorem C50_missing_file (fp : Fp) (g : Geo) (nullOk : Bool) (fuel : Nat) (p : FilePlayer) (junk : List Nat) (hprev : -1 ≤ p.rdr.rd.nch) (al : Nat → Bool) :
    ∃ p', p.playWav g none junk = .ok (false, p') ∧ p'.update fp g nullOk fuel al = .ok ({}, p') := by
  refine ⟨_, rfl, ?_⟩
  unfold FilePlayer.update FileReader.update
  simp only [FilePlayer.stop, FileReader.close, Rd.stop, if_true]
  rw [update_idle hprev]
  rfl

/-- An array player: `playWav` that returns false stops whatever was playing before; updates do nothing. -/
theorem C50_array (fp : Fp) (fuel : Nat) (p p' : ArrayPlayer) (image : List Nat) (hprev : -1 ≤ p.rdr.rd.nch)
    (h : p.playWav image = .ok (false, p')) (al : Nat → Bool) : p'.rdr.rd.playing = false ∧ p'.update fp fuel al = .ok ({}, p') := by
  have key : p' = p.stop := by
    unfold ArrayPlayer.playWav at h
    obtain ⟨⟨ok, r⟩, h1, h⟩ := bind_ok_iff.1 h
    cases h
    unfold ArrayReader.playWav at h1
    obtain ⟨⟨ok1, hdr⟩, _, h1⟩ := bind_ok_iff.1 h1
    simp only at h1
    split at h1
    · cases h1; rfl
    obtain ⟨t, _, h1⟩ := bind_ok_iff.1 h1
    cases t with
    | none => cases h1; rfl
    | some t =>
      simp only at h1
      obtain ⟨⟨ok2, dh⟩, _, h1⟩ := bind_ok_iff.1 h1
      simp only at h1
      split at h1
      · cases h1; rfl
      · split at h1
        · cases h1
        · simp [ArrayReader.playRaw] at h1
  subst key
  refine ⟨rfl, ?_⟩
  unfold ArrayPlayer.update ArrayReader.update
  simp only [ArrayPlayer.stop, Rd.stop]
  rw [update_idle hprev]
  rfl

/-- A stereo header followed by a chunk of another kind. -/
def exJunkChunk : List Nat := header ⟨2084, 1, 2, 44100, 176400, 4, 16⟩ ++ [74, 85, 78, 75, 0, 0, 0, 0]

example : ∃ p', ({} : FilePlayer).playWav sdGeo (some ⟨exJunkChunk, 0, false⟩) (List.replicate 36 0) = .ok (false, p') ∧
    p'.update Fp.ideal sdGeo true 2 (fun _ => true) = .ok ({}, p') := by
  have h : ({} : FilePlayer).playWav sdGeo (some ⟨exJunkChunk, 0, false⟩) (List.replicate 36 0) =
      .ok (false, ⟨⟨{ nch := 2, fileSize := 44 }, none⟩, none⟩) := rfl
  exact ⟨_, h, C50_wav_partial _ _ _ _ _ _ _ _ _ (by decide) (by decide) (by decide) h _⟩

/-- A header that claims 40000 channels. -/
def exManyChannels : List Nat := header ⟨2084, 1, 40000, 44100, 176400, 4, 16⟩ ++ [74, 85, 78, 75, 0, 0, 0, 0]

/-- **C50 refuted**: a WAV file with 40000 channels and an unknown chunk is refused, but the next update declares arrays of
negative size. -/
theorem C50_refuted (fp : Fp) (nullOk : Bool) (fuel : Nat) (al : Nat → Bool) :
    ∃ p', ({} : FilePlayer).playWav sdGeo (some ⟨exManyChannels, 0, false⟩) (List.replicate 36 0) = .ok (false, p') ∧
      p'.update fp sdGeo nullOk fuel al = .error .badVLA := by
  refine ⟨⟨⟨{ nch := -25536, fileSize := 44 }, none⟩, none⟩, rfl, rfl⟩

end TVP
