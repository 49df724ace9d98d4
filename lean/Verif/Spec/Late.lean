import Verif.Model.Player
import Verif.Spec.Cache

/-!
# Players whose events are run late
-/

namespace TVP.Spec

/-- What happens to a player: the audio library calls `update()`, the program runs pending events (`yield` or `runPolled`), or sets the speed. -/
inductive Turn
  | update (alloc : Nat → Bool)
  | poll
  | speed (v : ℚ)

/-- The file player through a list of these, with the effects of the updates. -/
def fileTurns (fp : Fp) (g : Geo) (nullOk : Bool) (fuel : Nat) : FilePlayer → List Turn → M (List Fx × FilePlayer)
  | p, [] => .ok ([], p)
  | p, .update al :: ts => do
    let (fx, p) ← p.update fp g nullOk fuel al
    let (fxs, p) ← fileTurns fp g nullOk fuel p ts
    return (fx :: fxs, p)
  | p, .poll :: ts => do fileTurns fp g nullOk fuel (← p.runEvent fp g fuel) ts
  | p, .speed v :: ts => fileTurns fp g nullOk fuel { p with rdr := { p.rdr with rd := p.rdr.rd.setPlaybackRate v } } ts

/-- A player with the whole file in memory whose events are run at the same moments, and the number of reload events run so far. -/
structure MemPlayer where
  rdr : ArrayReader
  pending : Option Ev := none
  served : Nat := 0

def MemPlayer.update (fp : Fp) (fuel : Nat) (b : MemPlayer) (alloc : Nat → Bool) : M (Fx × MemPlayer) := do
  let (fx, r) ← b.rdr.update fp fuel alloc
  match fx.event with
  | none => return (fx, { b with rdr := r })
  | some e => return (fx, { b with rdr := r, pending := some e })

def MemPlayer.runEvent (b : MemPlayer) : MemPlayer :=
  match b.pending with
  | none => b
  | some .reload => { b with pending := none, served := b.served + 1 }
  | some .close => { b with rdr := b.rdr.close, pending := none }

def memTurns (fp : Fp) (fuel : Nat) : MemPlayer → List Turn → M (List Fx × MemPlayer)
  | b, [] => .ok ([], b)
  | b, .update al :: ts => do
    let (fx, b) ← b.update fp fuel al
    let (fxs, b) ← memTurns fp fuel b ts
    return (fx :: fxs, b)
  | b, .poll :: ts => memTurns fp fuel b.runEvent ts
  | b, .speed v :: ts => memTurns fp fuel { b with rdr := { b.rdr with rd := b.rdr.rd.setPlaybackRate v } } ts

/-- The samples of the file, those from block `w + N` on replaced by silence. -/
def audible (m : List Nat) (N B w : Int) : List Int :=
  (List.range (m.length / 2)).map fun i : Nat => if (i : Int) / B < w + N then fileSample m i else 0

/-- What is to be known of a streaming player: the first block in memory, and the first sample played since the last reload. -/
structure Streamed where
  rd : Rd
  window : Int
  first : Option Int := none
  pending : Option Ev := none

def Streamed.update (fp : Fp) (m : List Nat) (N B : Int) (fuel : Nat) (q : Streamed) (alloc : Nat → Bool) : M (Fx × Streamed) := do
  let (fx, r) ← ArrayReader.update fp fuel ⟨q.rd, some (audible m N B q.window)⟩ alloc
  match fx.event with
  | none => return (fx, { q with rd := r.rd })
  | some e => return (fx, ⟨r.rd, q.window, some (q.first.getD q.rd.pos1), some e⟩)

/-- A reload replaces the blocks before the first one played since the last reload, but no more than `N`. -/
def Streamed.runEvent (N B : Int) (q : Streamed) : Streamed :=
  match q.pending with
  | none => q
  | some .reload => ⟨q.rd, min (q.first.getD q.rd.pos1 / B) (q.window + N), none, none⟩
  | some .close => ⟨q.rd.stop, q.window, none, none⟩

def streamedTurns (fp : Fp) (m : List Nat) (N B : Int) (fuel : Nat) : Streamed → List Turn → M (List Fx × Streamed)
  | q, [] => .ok ([], q)
  | q, .update al :: ts => do
    let (fx, q) ← q.update fp m N B fuel al
    let (fxs, q) ← streamedTurns fp m N B fuel q ts
    return (fx :: fxs, q)
  | q, .poll :: ts => streamedTurns fp m N B fuel (q.runEvent N B) ts
  | q, .speed v :: ts => streamedTurns fp m N B fuel { q with rd := q.rd.setPlaybackRate v } ts

/-- The speeds set are from 0 to `R`. -/
def Speeds (R : Int) (ts : List Turn) : Prop := ∀ v, Turn.speed v ∈ ts → 0 ≤ v ∧ v ≤ R

/-- No more than `n` updates pass without events being run, `j` having passed already. -/
def Prompt (n : Nat) : Nat → List Turn → Prop
  | _, [] => True
  | j, .update _ :: ts => j < n ∧ Prompt n (j + 1) ts
  | _, .poll :: ts => Prompt n 0 ts
  | j, .speed _ :: ts => Prompt n j ts

/-- The number of updates. -/
def updates : List Turn → Nat
  | [] => 0
  | .update _ :: ts => updates ts + 1
  | _ :: ts => updates ts

end TVP.Spec
