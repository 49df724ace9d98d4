import Verif.Lemmas.PolarityDef
import Verif.Props.Polarity
import Verif.Props.LoudHeads

/-!
# Property C96: the inverse is played whenever the sound is
-/

namespace TVP
open Spec

variable {fp : Fp} {xs ys : List Int}

theorem FlipOn.update_goes (he : fp.Even) (hd : AtMost 32767 xs) (hy : ys = xs.map (-·)) {fuel : Nat} {b b' : ArrayReader} (h : FlipOn false xs ys b b') (hr : Tame fp 32767 b.rd) (al : Nat → Bool) :
    Goes (fun _ => True) (fun x y => Mirrored (Upside false) x.1 y.1 ∧ FlipOn false xs ys x.2 y.2) (b.update fp fuel al) (b'.update fp fuel al) := by
  refine Goes.agree (q := fun _ _ => True) ?_ (h.update he hy al)
  have hp : b'.rd.playing = b.rd.playing := by rw [h.rd]; rfl
  have hn : b'.rd.nch = b.rd.nch := by rw [h.rd]; rfl
  unfold ArrayReader.update
  rw [hp, hn]
  refine TVP.update_goes ?_ al
  unfold ArrayReader.read
  rw [h.rd]
  exact Goes.bind (read_goes he hd hy hr ⟨h.src, h.src'⟩).any fun _ _ _ _ => Goes.ok trivial

theorem memUpdate_goes (he : fp.Even) (hd : AtMost 32767 xs) (hy : ys = xs.map (-·)) {fuel : Nat} {b b' : MemPlayer} (h : FlipOn false xs ys b.rdr b'.rdr) (hp : b.pending = b'.pending)
    (hr : Tame fp 32767 b.rdr.rd) (al : Nat → Bool) :
    Goes (fun _ => True) (fun x y => FlipOn false xs ys x.2.rdr y.2.rdr ∧ x.2.pending = y.2.pending) (b.update fp fuel al) (b'.update fp fuel al) := by
  unfold MemPlayer.update
  refine Goes.bind (h.update_goes he hd hy hr al).any ?_
  rintro ⟨fx, b1⟩ ⟨fx', b1'⟩ _ ⟨h1, h2⟩
  simp only at h1 h2
  simp only [← h1.2.2.1]
  cases fx.event with
  | none => exact Goes.ok ⟨h2, hp⟩
  | some e => exact Goes.ok ⟨h2, rfl⟩

theorem runEvent_flip {b b' : MemPlayer} (h : FlipOn false xs ys b.rdr b'.rdr) (hp : b.pending = b'.pending) :
    FlipOn false xs ys b.runEvent.rdr b'.runEvent.rdr ∧ b.runEvent.pending = b'.runEvent.pending := by
  unfold MemPlayer.runEvent
  rw [← hp]
  cases hb : b.pending with
  | none => exact ⟨h, by simp only; rw [← hp, hb]⟩
  | some e =>
    cases e with
    | reload => exact ⟨h, rfl⟩
    | close => exact ⟨h.close, rfl⟩

theorem memSet_flip {b b' : MemPlayer} (h : FlipOn false xs ys b.rdr b'.rdr) (hp : b.pending = b'.pending) {s : Setting} (hs : s ≠ .interpolation true) :
    FlipOn false xs ys (b.set s).rdr (b'.set s).rdr ∧ (b.set s).pending = (b'.set s).pending := by
  refine ⟨⟨?_, h.src, h.src', set_cub h.kind fun e => absurd e hs⟩, ?_⟩
  · change b'.rdr.rd.set s = _
    rw [h.rd, set_flip]
    rfl
  · unfold MemPlayer.set
    simp only
    rw [hp]

theorem memCalls_goes (he : fp.Even) (hd : AtMost 32767 xs) (hy : ys = xs.map (-·)) {fuel : Nat} : ∀ (ts : List Call) {b b' : MemPlayer}, FlipOn false xs ys b.rdr b'.rdr → b.pending = b'.pending →
    OneHead 32767 b.rdr.rd ts → Hushed 32767 b.rdr.rd → Goes (fun _ => True) (fun _ _ => True) (memCalls fp fuel b ts) (memCalls fp fuel b' ts)
  | [], b, b', _, _, _, _ => by unfold memCalls; exact Goes.ok trivial
  | .update al :: ts, b, b', h, hp, ht, hr => by
    unfold memCalls
    refine Goes.bind (memUpdate_goes he hd hy h hp (ht.tame hr) al).any ?_
    rintro ⟨fx, b1⟩ ⟨fx', b1'⟩ h1 ⟨h2, h3⟩
    obtain ⟨_, _, k3, k4⟩ := memUpdate_hushed hd h.src (ht.tame hr) h1
    exact Goes.bind (memCalls_goes he hd hy ts h2 h3 (ht.rest fun e => k4.1.trans e) k3.hush).any fun _ _ _ _ => Goes.ok trivial
  | .poll :: ts, b, b', h, hp, ht, hr => by
    unfold memCalls
    obtain ⟨_, k2, k3⟩ := runEvent_hushed (fp := fp) h.src (ht.tame hr)
    obtain ⟨j1, j2⟩ := runEvent_flip h hp
    exact memCalls_goes he hd hy ts j1 j2 (ht.rest fun e => k3.1.trans e) k2.hush
  | .set s :: ts, b, b', h, hp, ht, hr => by
    unfold memCalls
    have hk : b.rdr.rd.dual = false ∧ PlainCalls (.set s :: ts) := ht.resolve_left (by norm_num)
    have h1 : s ≠ .dual true := fun e => hk.2.1 (by rw [e]; exact List.mem_cons_self)
    have h2 : s ≠ .interpolation true := fun e => hk.2.2 (by rw [e]; exact List.mem_cons_self)
    obtain ⟨j1, j2⟩ := memSet_flip h hp h2
    exact memCalls_goes he hd hy ts j1 j2 (Or.inr ⟨set_oneHead hk.1 h1, fun e => hk.2.1 (List.mem_cons_of_mem _ e), fun e => hk.2.2 (List.mem_cons_of_mem _ e)⟩) (hr.set (Or.inr ⟨h1, h2⟩))

theorem memCalls_heads_goes (he : fp.Even) (hd : AtMost 32767 xs) (hy : ys = xs.map (-·)) {fuel : Nat} : ∀ (ts : List Call) {b b' : MemPlayer}, FlipOn false xs ys b.rdr b'.rdr → b.pending = b'.pending →
    KeepsOn ts → Tame fp 32767 b.rdr.rd → Gentle 32767 b.rdr.rd (fun v => Call.set (.speed v) ∈ ts) → Goes (fun _ => True) (fun _ _ => True) (memCalls fp fuel b ts) (memCalls fp fuel b' ts)
  | [], b, b', _, _, _, _, _ => by unfold memCalls; exact Goes.ok trivial
  | .update al :: ts, b, b', h, hp, ht, hr, hg => by
    unfold memCalls
    refine Goes.bind (memUpdate_goes he hd hy h hp hr al).any ?_
    rintro ⟨fx, b1⟩ ⟨fx', b1'⟩ h1 ⟨h2, h3⟩
    obtain ⟨_, _, k3, k4⟩ := memUpdate_hushed hd h.src hr h1
    exact Goes.bind (memCalls_heads_goes he hd hy ts h2 h3 (fun s hs => ht s (List.mem_cons_of_mem _ hs)) k3 (hg.mono k4 fun v hv => List.mem_cons_of_mem _ hv)).any fun _ _ _ _ => Goes.ok trivial
  | .poll :: ts, b, b', h, hp, ht, hr, hg => by
    unfold memCalls
    obtain ⟨_, k2, k3⟩ := runEvent_hushed (fp := fp) h.src hr
    obtain ⟨j1, j2⟩ := runEvent_flip h hp
    exact memCalls_heads_goes he hd hy ts j1 j2 (fun s hs => ht s (List.mem_cons_of_mem _ hs)) k2 (hg.mono k3 fun v hv => List.mem_cons_of_mem _ hv)
  | .set s :: ts, b, b', h, hp, ht, hr, hg => by
    unfold memCalls
    have ht' : KeepsOn ts := fun s hs => ht s (List.mem_cons_of_mem _ hs)
    rcases ht s List.mem_cons_self with rfl | rfl | ⟨v, rfl⟩
    · obtain ⟨j1, j2⟩ := memSet_flip h hp (s := .stop) (by simp)
      exact memCalls_heads_goes he hd hy ts j1 j2 ht' hr.stop (hg.mono (Holds.refl b.rdr.rd) fun v hv => List.mem_cons_of_mem _ hv)
    · obtain ⟨j1, j2⟩ := memSet_flip h hp (s := .stopPolled) (by simp)
      exact memCalls_heads_goes he hd hy ts j1 j2 ht' hr.stop (hg.mono (Holds.refl b.rdr.rd) fun v hv => List.mem_cons_of_mem _ hv)
    · obtain ⟨j1, j2⟩ := memSet_flip h hp (s := .speed v) (by simp)
      obtain ⟨g1, g2⟩ := hg.speed (t := fun v => Call.set (.speed v) ∈ ts) (v := v) List.mem_cons_self fun v hv => List.mem_cons_of_mem _ hv
      exact memCalls_heads_goes he hd hy ts j1 j2 ht' ⟨hr.hush.rate v, hr.poised.rate g2⟩ g1

/-! ## The property -/

/-- **C96** (partial).  A player of a sound that has an inverse in 16 bits (no sample is the lowest one, which has no opposite; neither is one remembered from before); one head, no interpolation
or linear interpolation.  Whatever then happens, except that the second head or cubic interpolation is turned on: if the sound is played well-defined, so is its inverse by a player in the same state,
and the blocks they send add up to nothing.

Missing: the second head, for which see `C96_heads_defined_partial`; cubic interpolation, for which see `C96_cubic_partial`. -/
theorem C96_defined_partial (he : RoundsEvenly fp) {fuel : Nat} {b b' c : MemPlayer} (hd : Inverse xs ys) (hmost : AtMost 32767 xs) (hsrc : b.rdr.src = some xs) (hsrc' : c.rdr.src = some ys)
    (hrd : Opposite b.rdr.rd c.rdr.rd) (hrem : Remembers 32767 b.rdr.rd) (hp : b.pending = c.pending) (hdual : b.rdr.rd.dual = false) (hi : b.rdr.rd.interp ≠ .quadratic)
    {ts : List Call} (hts : PlainCalls ts) {fxs : List Fx} (h : memCalls fp fuel b ts = .ok (fxs, b')) :
    ∃ fxs' c', memCalls fp fuel c ts = .ok (fxs', c') ∧ List.Forall₂ (Mirrored Cancel) fxs fxs' := by
  obtain ⟨⟨fxs', c'⟩, h', _⟩ := memCalls_goes he hmost hd.map ts ⟨hrd.flip, hsrc, hsrc', fun e => absurd e hi⟩ hp (Or.inr ⟨hdual, hts⟩)
    (hrem.hushed (by norm_num) (Or.inr ⟨hdual, hi⟩)) _ h trivial
  exact ⟨fxs', c', h', C96_inverse_partial he hd hsrc hsrc' hrd hp hi hts.2 h h'⟩

/-- **C96** (partial), two heads.  The same for a player that fades from the end of a loop into its beginning, or to and fro: whenever the library asks for sound, events are run and playback is
stopped, and, if it goes forwards and not to and fro, whatever positive speeds are set in the meantime, the inverse is played well-defined if the sound is, and what they send adds up to nothing.

Missing: a change of direction, changes of the loop or the length of the fade, and cubic interpolation. -/
theorem C96_heads_defined_partial (he : RoundsEvenly fp) (hfp : Representable fp) {fuel : Nat} {b b' c : MemPlayer} (hd : Inverse xs ys) (hmost : AtMost 32767 xs) (hsrc : b.rdr.src = some xs)
    (hsrc' : c.rdr.src = some ys) (hrd : Opposite b.rdr.rd c.rdr.rd) (hrem : Remembers 32767 b.rdr.rd) (hp : b.pending = c.pending) (hfade : BeforeFade b.rdr.rd)
    (hi : b.rdr.rd.interp ≠ .quadratic) {ts : List Call} (hts : KeepsOn ts)
    (hdir : (0 < b.rdr.rd.rate ∧ b.rdr.rd.loopType ≠ .pingpong) ∧ (∀ v, Call.set (.speed v) ∈ ts → 0 < v) ∨ ∀ v, Call.set (.speed v) ∉ ts)
    {fxs : List Fx} (h : memCalls fp fuel b ts = .ok (fxs, b')) :
    ∃ fxs' c', memCalls fp fuel c ts = .ok (fxs', c') ∧ List.Forall₂ (Mirrored Cancel) fxs fxs' := by
  obtain ⟨⟨fxs', c'⟩, h', _⟩ := memCalls_heads_goes he hmost hd.map ts ⟨hrd.flip, hsrc, hsrc', fun e => absurd e hi⟩ hp hts (hfade.tame hfp (by norm_num) hrem hi) (Or.inr (Or.inr hdir)) _ h trivial
  refine ⟨fxs', c', h', C96_inverse_partial he hd hsrc hsrc' hrd hp hi (fun e => ?_) h h'⟩
  rcases hts _ e with e | e | ⟨_, e⟩ <;> cases e

/-! ## Examples -/

/-- One head and linear interpolation at half speed in a loop. -/
def exDefined (xs : List Int) : MemPlayer := ⟨(({ rd := { loopType := .repeat, interp := .linear, rate := 1 / 2 } } : ArrayReader).playRaw xs 6 1).2, none, 0⟩

def exDefinedCalls : List Call := [.update fun _ => true, .set (.speed (3 / 4)), .update fun _ => true, .poll, .set (.speed (-1)), .update fun _ => true]

theorem exDefined_pts (xs : List Int) : (exDefined xs).rdr.rd.pts = fun _ => {} := by
  unfold exDefined ArrayReader.playRaw Rd.reset Rd.setNumChannels
  funext c
  simp only
  split <;> split <;> rfl

example : ∃ fxs fxs' b b', memCalls Fp.ieee 3 (exDefined [10, -20, 32767, -40, 50, -32767]) exDefinedCalls = .ok (fxs, b) ∧
    memCalls Fp.ieee 3 (exDefined [-10, 20, -32767, 40, -50, 32767]) exDefinedCalls = .ok (fxs', b') ∧ List.Forall₂ (Mirrored Cancel) fxs fxs' := by
  have h : (memCalls Fp.ieee 3 (exDefined [10, -20, 32767, -40, 50, -32767]) exDefinedCalls).toOption.isSome = true := by decide +kernel
  cases e : memCalls Fp.ieee 3 (exDefined [10, -20, 32767, -40, 50, -32767]) exDefinedCalls with
  | error f => rw [e] at h; cases h
  | ok x =>
    obtain ⟨fxs', c', h1, h2⟩ := C96_defined_partial (b := exDefined [10, -20, 32767, -40, 50, -32767]) (c := exDefined [-10, 20, -32767, 40, -50, 32767]) (xs := [10, -20, 32767, -40, 50, -32767])
      (ys := [-10, 20, -32767, 40, -50, 32767]) ieee_evenly (by unfold Inverse Cancel; decide) (by unfold AtMost InI16; decide) rfl rfl (opposite_new (r := (exDefined [10, -20, 32767, -40, 50, -32767]).rdr.rd) (exDefined_pts _))
      (new_remembers (by norm_num) (exDefined_pts _) (by decide)) rfl rfl (by decide) (by unfold PlainCalls; simp [exDefinedCalls]) e
    exact ⟨x.1, fxs', x.2, c', rfl, h1, h2⟩

example : ∃ fxs fxs' b b', memCalls Fp.ieee 3 exTwo exTwoCalls = .ok (fxs, b) ∧ memCalls Fp.ieee 3 (exInverse .linear [-10, 20, -30, 40, -50, 60]) exTwoCalls = .ok (fxs', b') ∧
    List.Forall₂ (Mirrored Cancel) fxs fxs' := by
  have h := exTwo_ok
  cases e : memCalls Fp.ieee 3 exTwo exTwoCalls with
  | error f => rw [e] at h; cases h
  | ok x =>
    have hp : exTwo.rdr.rd.pts = fun _ => {} := by
      unfold exTwo ArrayReader.playRaw Rd.reset Rd.setNumChannels
      funext c
      simp only
      split <;> split <;> rfl
    obtain ⟨fxs', c', h1, h2⟩ := C96_heads_defined_partial (b := exTwo) (c := exInverse .linear [-10, 20, -30, 40, -50, 60]) (xs := [10, -20, 30, -40, 50, -60]) (ys := [-10, 20, -30, 40, -50, 60]) ieee_evenly
      ieee_representable (by unfold Inverse Cancel; decide) (by unfold AtMost InI16; decide) rfl rfl (opposite_new (r := exTwo.rdr.rd) hp) (new_remembers (by norm_num) hp (by decide)) rfl exTwo_before (by decide)
      (ts := exTwoCalls) (by
        intro s hs
        simp only [exTwoCalls, List.mem_cons, Call.set.injEq, List.not_mem_nil, or_false, reduceCtorEq, false_or] at hs
        rcases hs with rfl | rfl
        · exact Or.inr (Or.inr ⟨_, rfl⟩)
        · exact Or.inr (Or.inr ⟨_, rfl⟩))
      (Or.inl ⟨⟨by decide +kernel, by decide⟩, fun v hv => by
        simp only [exTwoCalls, List.mem_cons, Call.set.injEq, Setting.speed.injEq, List.not_mem_nil, or_false, reduceCtorEq, false_or] at hv
        rcases hv with rfl | rfl <;> norm_num⟩) e
    exact ⟨x.1, fxs', x.2, c', rfl, h1, h2⟩

end TVP
