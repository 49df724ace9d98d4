import Verif.Lemmas.LoopTicks
import Verif.Lemmas.GlideRev

/-!
# Updates of players whose speed is changed meanwhile
-/

namespace TVP
open Spec

/-- What a program does with a playing player: an update whose event is serviced, or a change of speed between updates. -/
inductive Deed
  | tick (alloc : Nat → Bool)
  | speed (v : ℚ)

/-- A file player going through a list of these; the blocks and events of its updates. -/
def FileReader.acts (fp : Fp) (g : Geo) (nullOk : Bool) (fuel : Nat) : FileReader → List Deed → M (List Fx × FileReader)
  | a, [] => .ok ([], a)
  | a, .tick al :: as => do
    let (fx, a) ← a.tick fp g nullOk fuel al
    let (fxs, a) ← FileReader.acts fp g nullOk fuel a as
    return (fx :: fxs, a)
  | a, .speed v :: as => FileReader.acts fp g nullOk fuel { a with rd := a.rd.setPlaybackRate v } as

def ArrayReader.acts (fp : Fp) (fuel : Nat) : ArrayReader → List Deed → M (List Fx × ArrayReader)
  | b, [] => .ok ([], b)
  | b, .tick al :: as => do
    let (fx, b) ← b.tick fp fuel al
    let (fxs, b) ← ArrayReader.acts fp fuel b as
    return (fx :: fxs, b)
  | b, .speed v :: as => ArrayReader.acts fp fuel { b with rd := b.rd.setPlaybackRate v } as

/-- Every change of speed is one that `ok` allows for a player with the sound in memory at that moment. -/
def Allowed (fp : Fp) (fuel : Nat) (ok : Rd → ℚ → Prop) : ArrayReader → List Deed → Prop
  | _, [] => True
  | b, .tick al :: as => ∀ fx b', b.tick fp fuel al = .ok (fx, b') → Allowed fp fuel ok b' as
  | b, .speed v :: as => ok b.rd v ∧ Allowed fp fuel ok { b with rd := b.rd.setPlaybackRate v } as

theorem FileReader.acts_ticks (fp : Fp) (g : Geo) (nullOk : Bool) (fuel : Nat) : ∀ (als : List (Nat → Bool)) (a : FileReader),
    a.acts fp g nullOk fuel (als.map .tick) = a.ticks fp g nullOk fuel als
  | [], _ => rfl
  | al :: als, a => by
    rw [List.map_cons, FileReader.acts, FileReader.ticks]
    cases a.tick fp g nullOk fuel al with
    | error e => rfl
    | ok x => simp only [ok_bind, FileReader.acts_ticks fp g nullOk fuel als]

theorem ArrayReader.acts_ticks (fp : Fp) (fuel : Nat) : ∀ (als : List (Nat → Bool)) (a : ArrayReader),
    a.acts fp fuel (als.map .tick) = a.ticks fp fuel als
  | [], _ => rfl
  | al :: als, a => by
    rw [List.map_cons, ArrayReader.acts, ArrayReader.ticks]
    cases a.tick fp fuel al with
    | error e => rfl
    | ok x => simp only [ok_bind, ArrayReader.acts_ticks fp fuel als]

theorem Allowed.ticks (fp : Fp) (fuel : Nat) (ok : Rd → ℚ → Prop) : ∀ (als : List (Nat → Bool)) (b : ArrayReader),
    Allowed fp fuel ok b (als.map .tick)
  | [], _ => trivial
  | _ :: als, _ => fun _ b' _ => Allowed.ticks fp fuel ok als b'

/-- If being in step survives updates and allowed changes of speed, it survives any list of them. -/
theorem acts_of {fp : Fp} {g : Geo} {nullOk : Bool} {fuel : Nat} {ok : Rd → ℚ → Prop} {Rel : FileReader → ArrayReader → Prop}
    (ht : ∀ a b alloc, Rel a b → ∃ fx a' b', a.tick fp g nullOk fuel alloc = .ok (fx, a') ∧ b.tick fp fuel alloc = .ok (fx, b') ∧ Rel a' b')
    (hs : ∀ a b v, Rel a b → ok b.rd v → Rel { a with rd := a.rd.setPlaybackRate v } { b with rd := b.rd.setPlaybackRate v }) :
    ∀ (as : List Deed) (a : FileReader) (b : ArrayReader), Rel a b → Allowed fp fuel ok b as →
    ∃ fxs a' b', a.acts fp g nullOk fuel as = .ok (fxs, a') ∧ b.acts fp fuel as = .ok (fxs, b') ∧ Rel a' b'
  | [], a, b, h, _ => ⟨[], a, b, rfl, rfl, h⟩
  | .tick al :: as, a, b, h, hok => by
    obtain ⟨fx, a1, b1, h1, h2, h3⟩ := ht a b al h
    obtain ⟨fxs, a2, b2, k1, k2, k3⟩ := acts_of ht hs as a1 b1 h3 (hok fx b1 h2)
    refine ⟨fx :: fxs, a2, b2, ?_, ?_, k3⟩
    · rw [FileReader.acts]; simp only [h1, ok_bind, k1]; rfl
    · rw [ArrayReader.acts]; simp only [h2, ok_bind, k2]; rfl
  | .speed v :: as, a, b, h, hok => acts_of ht hs as _ _ (hs a b v h hok.1) hok.2

/-! ## What a change of speed leaves alone -/

theorem setPlaybackRate_keeps (r : Rd) (v : ℚ) : (r.setPlaybackRate v).playing = r.playing ∧ (r.setPlaybackRate v).nch = r.nch := by
  unfold Rd.setPlaybackRate
  simp only
  repeat' split
  all_goals exact ⟨rfl, rfl⟩

/-- Where a change of speed does not move the position (C39). -/
def Inside (r : Rd) (v : ℚ) : Prop := r.header < r.pos1 ∨ (0 ≤ v ∧ r.header ≤ r.pos1)

theorem Inside.only_rate {r : Rd} {v : ℚ} (h : Inside r v) : r.setPlaybackRate v = { r with rate := v } := by
  unfold Inside at h
  unfold Rd.setPlaybackRate
  simp only
  have h1 : v < 0 → ¬ r.pos1 ≤ r.header := fun hv => by
    rcases h with h | ⟨h, _⟩
    · omega
    · exact absurd h (not_le.2 hv)
  have h2 : ¬ r.pos1 < r.header := by omega
  by_cases hv : v < 0
  · simp only [if_pos hv, if_neg (h1 hv)]; repeat' split
    all_goals rfl
  · simp only [if_neg hv, if_neg h2]; repeat' split
    all_goals rfl

variable {m : List Nat} {g : Geo} {mm : Int} {St : Rd → Prop} {F0 : Nat} {fp : Fp}

theorem InStep.speed {a : FileReader} {b : ArrayReader} {v : ℚ} (h : InStep m g mm St F0 a b) (hin : a.rd.playing = true → Inside a.rd v)
    (hst : a.rd.playing = true → St { a.rd with rate := v }) :
    InStep m g mm St F0 { a with rd := a.rd.setPlaybackRate v } { b with rd := b.rd.setPlaybackRate v } := by
  obtain ⟨k1, k2⟩ := setPlaybackRate_keeps a.rd v
  refine ⟨by simp only; rw [h.rd], by simp only; rw [k2]; exact h.nch, h.fails, h.src, fun hp => ?_⟩
  simp only at hp ⊢
  rw [k1] at hp
  obtain ⟨_, c, k, L, q1, q2, q3, q4⟩ := h.live hp
  rw [(hin hp).only_rate]
  exact ⟨hst hp, c, k, L, q1, q2, q3, q4⟩

theorem InStepBack.speed {a : FileReader} {b : ArrayReader} {v : ℚ} (h : InStepBack m g mm St F0 a b) (hin : a.rd.playing = true → Inside a.rd v)
    (hst : a.rd.playing = true → St { a.rd with rate := v }) :
    InStepBack m g mm St F0 { a with rd := a.rd.setPlaybackRate v } { b with rd := b.rd.setPlaybackRate v } := by
  obtain ⟨k1, k2⟩ := setPlaybackRate_keeps a.rd v
  refine ⟨by simp only; rw [h.rd], by simp only; rw [k2]; exact h.nch, h.fails, h.src, fun hp => ?_⟩
  simp only at hp ⊢
  rw [k1] at hp
  obtain ⟨_, c, k, q1, q2, q3, q4, q5⟩ := h.live hp
  rw [(hin hp).only_rate]
  exact ⟨hst hp, c, k, q1, q2, q3, q4, q5⟩

variable {Live : Rd → Cache → Prop}

theorem Along.speed {a : FileReader} {b : ArrayReader} {v : ℚ} (h : Along m Live F0 a b) (hin : a.rd.playing = true → Inside a.rd v)
    (hl : ∀ c, Live a.rd c → Live { a.rd with rate := v } c) :
    Along m Live F0 { a with rd := a.rd.setPlaybackRate v } { b with rd := b.rd.setPlaybackRate v } := by
  obtain ⟨k1, k2⟩ := setPlaybackRate_keeps a.rd v
  refine ⟨by simp only; rw [h.rd], by simp only; rw [k2]; exact h.nch, h.fails, h.src, fun hp => ?_⟩
  simp only at hp ⊢
  rw [k1] at hp
  obtain ⟨c, q1, q2⟩ := h.live hp
  rw [(hin hp).only_rate]
  exact ⟨c, q1, hl c q2⟩

end TVP
