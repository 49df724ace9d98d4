import Verif.Lemmas.Life
import Verif.Props.Wav

/-!
# C83: whatever files are played, nothing undefined happens
-/

namespace TVP
open Spec

variable {fp : Fp} {g : Geo} {l : Limits}

theorem InOrder.calls (hfp : Representable fp) (hl : l.Fair) {fuel : Nat} (hf2 : 2 ≤ fuel) (hf : g.N ≤ fuel) (nullOk : Bool) {p : FilePlayer} (h : InOrder l g p.rdr.rd p.rdr.src)
    (rs : List ReadResult) {c : Call} (hc : (Use.call c).Within l) :
    ∃ fxs p' rs', fileCalls fp g nullOk fuel p rs [c] = .ok (fxs, p', rs') ∧ InOrder l g p'.rdr.rd p'.rdr.src ∧ ∀ fx ∈ fxs, WholeBlocks fx := by
  obtain ⟨k, rfl⟩ : ∃ k, fuel = k + 2 := ⟨fuel - 2, by omega⟩
  cases c with
  | update al =>
    obtain ⟨fx, a', e1, e2, e3⟩ := h.update hfp nullOk k al
    unfold fileCalls FilePlayer.update
    rw [e1]
    simp only [ok_bind]
    cases hev : fx.event with
    | none => exact ⟨_, _, _, rfl, e2, fun x hx => by rw [List.mem_singleton.1 hx]; exact e3⟩
    | some e => exact ⟨_, _, _, rfl, e2, fun x hx => by rw [List.mem_singleton.1 hx]; exact e3⟩
  | poll =>
    unfold fileCalls FilePlayer.runEventF
    cases p.pending with
    | none => exact ⟨_, _, _, rfl, h, fun x hx => (nomatch hx)⟩
    | some e =>
      obtain ⟨a', rs', e1, e2⟩ := h.event (fp := fp) hf rs e
      simp only [e1, ok_bind]
      exact ⟨_, _, _, rfl, e2, fun x hx => (nomatch hx)⟩
  | set s => exact ⟨_, _, _, rfl, h.set hl hc, fun x hx => (nomatch hx)⟩

theorem InOrder.life (hfp : Representable fp) (hl : l.Fair) {fuel : Nat} (hf2 : 2 ≤ fuel) (hf : g.N ≤ fuel) (nullOk : Bool) : ∀ (us : List Use) (p : FilePlayer) (rs : List ReadResult),
    InOrder l g p.rdr.rd p.rdr.src → (∀ u ∈ us, u.Within l) → ∃ fxs p' rs', life fp g nullOk fuel p rs us = .ok (fxs, p', rs') ∧ ∀ fx ∈ fxs, WholeBlocks fx
  | [], p, rs, _, _ => ⟨_, _, _, rfl, fun x hx => (nomatch hx)⟩
  | u :: us, p, rs, h, hu => by
    have hus : ∀ u ∈ us, u.Within l := fun x hx => hu x (List.mem_cons_of_mem _ hx)
    have hw := hu u List.mem_cons_self
    have hstop : Willing l p.stop.rdr.close.rd := h.willing
    cases u with
    | raw polled file n =>
      obtain ⟨okk, a, rs1, e1, e2⟩ := hstop.raw (g := g) hl hw rs
      obtain ⟨fxs, p', rs', e3, e4⟩ := InOrder.life hfp hl hf2 hf nullOk us ⟨a, if polled then p.pending else none⟩ rs1 e2 hus
      refine ⟨fxs, p', rs', ?_, e4⟩
      unfold Spec.life
      rw [e1]; exact e3
    | wav polled file junk =>
      obtain ⟨okk, a, rs1, e1, e2⟩ := hstop.wav (g := g) hl hw rs
      obtain ⟨fxs, p', rs', e3, e4⟩ := InOrder.life hfp hl hf2 hf nullOk us ⟨a, if polled then p.pending else none⟩ rs1 e2 hus
      refine ⟨fxs, p', rs', ?_, e4⟩
      unfold Spec.life
      rw [e1]; exact e3
    | call c =>
      obtain ⟨fxs1, p1, rs1, e1, e2, e3⟩ := h.calls hfp hl hf2 hf nullOk rs hw
      obtain ⟨fxs, p', rs', e4, e5⟩ := InOrder.life hfp hl hf2 hf nullOk us p1 rs1 e2 hus
      refine ⟨fxs1 ++ fxs, p', rs', ?_, ?_⟩
      · unfold Spec.life
        rw [e1]
        simp only [ok_bind]
        rw [e4]; rfl
      · intro x hx
        rcases List.mem_append.1 hx with hx | hx
        · exact e3 x hx
        · exact e5 x hx

/-- **C83** (partial: forwards or standing still, no loops, one playback head).  A new file player, and any program that plays raw and WAV files one after the
other, whatever is in them, changes the speed, the start position and interpolation, stops, and has updates and events in any order, while reads of
samples may fail or come up short at any time: nothing is ever undefined and nothing hangs, and every block sent has 128 samples of 16 bits.  The files are of
less than 2 GB together with what the speed may overshoot; WAV files may be broken in any way but these: fewer than 36 bytes, a zero-free start that is not
RIFF, RIFF of another kind than WAVE or not starting with `fmt`, no channels, more channels than the limit (32767, or 8 with interpolation), a LIST chunk that
runs out of the file, a data chunk whose claimed length overflows.  Missing: those, see the refutations; loops; backwards; two heads. -/
theorem C83_partial (hfp : Representable fp) (g : Geo) {l : Limits} (hl : l.Fair) {fuel : Nat} (hf2 : 2 ≤ fuel) (hf : g.N ≤ fuel) (nullOk : Bool)
    (us : List Use) (hus : ∀ u ∈ us, u.Within l) (rs : List ReadResult) :
    ∃ fxs p rs', life fp g nullOk fuel {} rs us = .ok (fxs, p, rs') ∧ ∀ fx ∈ fxs, WholeBlocks fx := by
  refine InOrder.life hfp hl hf2 hf nullOk us {} rs ?_ hus
  have h0 := hl.start0
  have h1 : ((1 : Int) : ℚ) ≤ (l.speed : ℚ) := by exact_mod_cast hl.speed0
  have h2 : (-1 : Int) ≤ l.channels := by have := hl.channels0; omega
  refine ⟨rfl, rfl, by norm_num, by simpa using h1, ?_, by norm_num, ?_, le_refl _, by norm_num, le_refl _, h2, fun k => absurd rfl k, le_refl _, h0, fun c k => (nomatch k), fun k => (nomatch k)⟩
  · exact ⟨0, 0, by norm_num, by norm_num, by norm_num⟩
  · intro c
    exact pts_new c

/-- A player of a stereo WAV file, speeded up, and of a raw file with interpolation, while a read fails. -/
def exUses : List Use :=
  [.call (.set (.speed (3 / 2))), .wav false (some ⟨exWav, 0, false⟩) (List.replicate 36 7), .call (.update fun _ => true), .call (.set (.interpolation true)), .call .poll,
   .call (.set .stopPolled), .raw true (some ⟨exBytes, 0, false⟩) 1, .call (.update fun _ => true), .call .poll, .call (.update fun i => i = 0),
   .wav true (some ⟨exBytes ++ List.replicate 30 0, 0, true⟩) (List.replicate 36 7), .call (.update fun _ => true), .wav false none [], .call (.update fun _ => true)]

theorem exWav_safe : SafeWav ⟨2, 10, 2, true⟩ exWav false := by
  refine ⟨by decide +kernel, by decide +kernel, by decide +kernel, by decide +kernel, by decide +kernel, ?_, ?_⟩
  · intro h; revert h; decide +kernel
  · rintro off ⟨⟨h, _⟩ | ⟨_, rfl⟩, _, _⟩
    · exact absurd h (by decide +kernel)
    · decide +kernel

example : ∃ fxs p rs', life Fp.ieee sdGeo true 7 {} [.all, .short 3, .error [] 0] exUses = .ok (fxs, p, rs') ∧ ∀ fx ∈ fxs, WholeBlocks fx := by
  refine C83_partial ieee_representable sdGeo (l := ⟨2, 10, 2, true⟩) ⟨by decide, by decide, by decide, by decide, by decide, by decide, by decide⟩ (by decide) (by decide) true exUses ?_ _
  intro u hu
  simp only [exUses, List.mem_cons, List.not_mem_nil, or_false] at hu
  rcases hu with rfl | rfl | rfl | rfl | rfl | rfl | rfl | rfl | rfl | rfl | rfl | rfl | rfl | rfl
  · exact ⟨by norm_num, by norm_num⟩
  · intro f hf; cases hf; exact ⟨rfl, rfl, exWav_safe⟩
  · trivial
  · exact fun _ => rfl
  · trivial
  · trivial
  · refine ⟨by decide, by decide, ?_⟩
    intro f hf; cases hf; decide +kernel
  · trivial
  · trivial
  · trivial
  · intro f hf; cases hf
    refine ⟨rfl, rfl, by decide +kernel, by decide +kernel, by decide +kernel, by decide +kernel, fun h => ?_, fun h => ?_, ?_⟩
    · revert h; decide +kernel
    · revert h; decide +kernel
    · rintro off ⟨⟨h, _⟩ | ⟨h, _⟩, _, _⟩ <;> exact absurd h (by decide +kernel)
  · trivial
  · intro f hf; cases hf
  · trivial

/-- **C83** is false without the conditions: a WAV header with 40000 channels makes the next update undefined; no channels, a division by zero; nine channels
with interpolation, an access outside an array; a RIFF file that is not a WAVE file, a `printf` with a tag that is not terminated. -/
theorem C83_refuted (al : Nat → Bool) (nullOk : Bool) :
    life Fp.ideal sdGeo nullOk 9 {} [] [.wav false (some ⟨exManyChannels, 0, false⟩) (List.replicate 36 0), .call (.update al)] = .error .badVLA ∧
    life Fp.ideal sdGeo nullOk 9 {} [] [.raw false (some ⟨[1, 2, 3, 4], 0, false⟩) 0] = .error .divByZero ∧
    life Fp.ideal exGeo nullOk 9 {} [] [.call (.set (.interpolation true)), .raw false (some ⟨List.replicate 18 1, 0, false⟩) 9, .call (.update fun _ => true)] = .error .outOfBounds ∧
    life Fp.ideal sdGeo nullOk 9 {} [] [.wav false (some ⟨[82, 73, 70, 70, 1, 1, 1, 1, 65, 86, 73, 32] ++ List.replicate 40 1, 0, false⟩) (List.replicate 36 0)] = .error .badFormat := by
  have key : ∀ {α : Type} (x : M α) (f : Fault), (match x with | .error e => decide (e = f) | .ok _ => false) = true → x = .error f := by
    intro α x f h
    cases x with
    | ok y => cases h
    | error e => simp only [decide_eq_true_eq] at h; rw [h]
  exact ⟨rfl, rfl, key _ _ (by cases nullOk <;> decide +kernel), rfl⟩

end TVP
