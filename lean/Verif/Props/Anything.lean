import Verif.Lemmas.Place
import Verif.Props.Faulty

/-!
# Property C81: whatever is done to a player
-/

namespace TVP
open Spec

/-- **C81**, for players with one playback head and without interpolation: speed, direction, kind and ends of the loop may be changed at any time, events be run at any time or
never, and blocks be missing.  If this is well-defined for a player with the file in memory, then `update()` is for the streaming one; it transmits and releases the same blocks
and raises the same events, each sample is that player's or silent, and it stays at the same place.  Only running the events can go wrong, as in **C19** and **C20**. -/
theorem C81_right_or_silent (fp : Fp) {g : Geo} {m : List Nat} (hb : IsBytes m) (hm : m.length < 2 ^ 32) {a a' : FileReader} (hd : a.rd.dual = false) (hi : a.rd.interp = .none)
    {rs rs' : List ReadResult} (hrs : AllOrNothing rs) (ho : OpenedWith g a m rs a' rs') (nullOk : Bool) {fuel : Nat} {ts : List Call} (hts : PlainCalls ts)
    {fxs' : List Fx} {b' : MemPlayer} (hmem : memCalls fp fuel (inMemory a' m) ts = .ok (fxs', b')) :
    (∃ fxs p' rs'', fileCalls fp g nullOk fuel ⟨a', none⟩ rs' ts = .ok (fxs, p', rs'') ∧ List.Forall₂ WithGaps fxs fxs' ∧ p'.rdr.rd = b'.rdr.rd ∧ p'.pending = b'.pending) ∨
      EventFails fp g nullOk fuel ⟨a', none⟩ rs' ts fxs' := by
  obtain ⟨⟨c, hc, hok⟩, hrs', hd', hi'⟩ := opened_keeps (by omega) hrs ho
  have h : Follows m g ⟨a', none⟩ (inMemory a' m) :=
    ⟨rfl, rfl, rfl, ⟨hd'.trans hd, hi'.trans hi⟩, fun c' h' => by simp only at h'; rw [hc] at h'; injection h' with h'; rw [← h']; exact hok, fun _ => ⟨c, hc⟩⟩
  rcases Follows.calls hb (by omega) nullOk ts _ _ rs' hts hrs' h hmem with ⟨fxs, p', rs'', k1, k2, k3⟩ | k
  · exact Or.inl ⟨fxs, p', rs'', k1, k2, k3.rd, k3.pend⟩
  · exact Or.inr k

/-- **C81**, for all players: whichever settings are changed, the second head and interpolation included, the streaming player stays at the place at which the one with the file in
memory is, stops when that one does, and raises the same events, as long as both are well-defined.  What is read from the file has no influence on this. -/
theorem C81_same_place (fp : Fp) {g : Geo} {m : List Nat} {a' : FileReader} {rs' rs'' : List ReadResult} (nullOk : Bool) {fuel : Nat} {ts : List Call}
    {fxs fxs' : List Fx} {p' : FilePlayer} {b' : MemPlayer} (hmem : memCalls fp fuel (inMemory a' m) ts = .ok (fxs', b'))
    (hfile : fileCalls fp g nullOk fuel ⟨a', none⟩ rs' ts = .ok (fxs, p', rs'')) :
    List.Forall₂ SameTiming fxs fxs' ∧ SamePlace b'.rdr.rd p'.rdr.rd ∧ p'.pending = b'.pending := by
  obtain ⟨k1, k2⟩ := KeepsPlace.calls nullOk ts ⟨a', none⟩ (inMemory a' m) rs' ⟨Apart.refl _, rfl⟩ hmem hfile
  exact ⟨k1, k2.rd.place, k2.pend⟩

/-! ## Examples -/

/-- A raw file is opened; the program sets up a loop, is late with events, turns around, goes faster and starts to bounce. -/
def exWhims : List Call :=
  [.set (.loopType .repeat), .set (.loopStart 1), .set (.loopFinish 4), .update fun _ => true, .update fun _ => true, .poll, .set (.speed (-1 / 2)), .update fun _ => true,
   .set (.loopType .pingpong), .set (.speed 2), .update fun _ => true]

/-- The reader after opening `exBytes` with the second read failing. -/
def exWhim : Bool × FileReader × List ReadResult :=
  match ({} : FileReader).playRawF exGeo (some ⟨exBytes, 0, false⟩) 1 [.all, .short 0] with
  | .ok x => x
  | .error _ => (false, {}, [])

theorem exWhim_opened : OpenedWith exGeo {} exBytes [.all, .short 0] exWhim.2.1 exWhim.2.2 := Or.inl ⟨false, 1, rfl⟩

theorem exWhim_mem : ∃ x, memCalls Fp.ideal 3 (inMemory exWhim.2.1 exBytes) exWhims = .ok x := by
  have : (memCalls Fp.ideal 3 (inMemory exWhim.2.1 exBytes) exWhims).toOption.isSome = true := by decide +kernel
  cases h : memCalls Fp.ideal 3 (inMemory exWhim.2.1 exBytes) exWhims with
  | error e => rw [h] at this; cases this
  | ok x => exact ⟨x, rfl⟩

theorem exWhims_plain : PlainCalls exWhims := by constructor <;> · intro h; simp [exWhims] at h

example : ∃ fxs' b', memCalls Fp.ideal 3 (inMemory exWhim.2.1 exBytes) exWhims = .ok (fxs', b') ∧
    ((∃ fxs p' rs'', fileCalls Fp.ideal exGeo true 3 ⟨exWhim.2.1, none⟩ exWhim.2.2 exWhims = .ok (fxs, p', rs'') ∧ List.Forall₂ WithGaps fxs fxs' ∧
      p'.rdr.rd = b'.rdr.rd ∧ p'.pending = b'.pending) ∨ EventFails Fp.ideal exGeo true 3 ⟨exWhim.2.1, none⟩ exWhim.2.2 exWhims fxs') := by
  obtain ⟨⟨fxs', b'⟩, h⟩ := exWhim_mem
  exact ⟨fxs', b', h, C81_right_or_silent Fp.ideal (by unfold IsBytes; decide +kernel) (by decide +kernel) rfl rfl (by intro n h; simp at h; exact h) exWhim_opened true exWhims_plain h⟩

/-- Interpolation is turned on while the file plays. -/
def exBends : List Call := [.set (.interpolation true), .set (.speed (1 / 2)), .update fun _ => true, .poll]

example : ∃ fxs fxs' p' b' rs'', memCalls Fp.ideal 3 (inMemory exWhim.2.1 exBytes) exBends = .ok (fxs', b') ∧
    fileCalls Fp.ideal exGeo true 3 ⟨exWhim.2.1, none⟩ exWhim.2.2 exBends = .ok (fxs, p', rs'') ∧
    List.Forall₂ SameTiming fxs fxs' ∧ SamePlace b'.rdr.rd p'.rdr.rd ∧ p'.pending = b'.pending := by
  have h : (memCalls Fp.ideal 3 (inMemory exWhim.2.1 exBytes) exBends).toOption.isSome = true := by decide +kernel
  have h' : (fileCalls Fp.ideal exGeo true 3 ⟨exWhim.2.1, none⟩ exWhim.2.2 exBends).toOption.isSome = true := by decide +kernel
  cases e : memCalls Fp.ideal 3 (inMemory exWhim.2.1 exBytes) exBends with
  | error f => rw [e] at h; cases h
  | ok x =>
    cases e' : fileCalls Fp.ideal exGeo true 3 ⟨exWhim.2.1, none⟩ exWhim.2.2 exBends with
    | error f => rw [e'] at h'; cases h'
    | ok y => exact ⟨y.1, x.1, y.2.1, x.2, y.2.2, rfl, rfl, C81_same_place Fp.ideal true e e'⟩

end TVP
