import Verif.Model.Settings
import Verif.Spec.Faulty

/-!
# Players to which anything may happen
-/

namespace TVP.Spec

/-- What happens to a player: the audio library calls `update()`, the program runs pending events, or changes a setting. -/
inductive Call
  | update (alloc : Nat → Bool)
  | poll
  | set (s : Setting)

/-- A file player through a list of these; `rs` are the results of the reads to come. -/
def fileCalls (fp : Fp) (g : Geo) (nullOk : Bool) (fuel : Nat) : FilePlayer → List ReadResult → List Call → M (List Fx × FilePlayer × List ReadResult)
  | p, rs, [] => .ok ([], p, rs)
  | p, rs, .update al :: ts => do
    let (fx, p) ← p.update fp g nullOk fuel al
    let (fxs, x) ← fileCalls fp g nullOk fuel p rs ts
    return (fx :: fxs, x)
  | p, rs, .poll :: ts => do
    let (p, rs) ← p.runEventF fp g fuel rs
    fileCalls fp g nullOk fuel p rs ts
  | p, rs, .set s :: ts => fileCalls fp g nullOk fuel (p.set g s) rs ts

/-- The settings of a player with the whole file in memory. -/
def MemPlayer.set (b : MemPlayer) (s : Setting) : MemPlayer :=
  { b with rdr := { b.rdr with rd := b.rdr.rd.set s }, pending := match s with | .stop => none | _ => b.pending }

def memCalls (fp : Fp) (fuel : Nat) : MemPlayer → List Call → M (List Fx × MemPlayer)
  | b, [] => .ok ([], b)
  | b, .update al :: ts => do
    let (fx, b) ← b.update fp fuel al
    let (fxs, b) ← memCalls fp fuel b ts
    return (fx :: fxs, b)
  | b, .poll :: ts => memCalls fp fuel b.runEvent ts
  | b, .set s :: ts => memCalls fp fuel (b.set s) ts

/-- The program is stopped while events are run, by endless repetition or a bad access; until then the updates gave what the first of `fxs'` gave, with gaps. -/
def EventFails (fp : Fp) (g : Geo) (nullOk : Bool) (fuel : Nat) (p : FilePlayer) (rs : List ReadResult) (ts : List Call) (fxs' : List Fx) : Prop :=
  ∃ ts1 ts2 fxs p1 rs1 f, ts = ts1 ++ .poll :: ts2 ∧ fileCalls fp g nullOk fuel p rs ts1 = .ok (fxs, p1, rs1) ∧ p1.runEventF fp g fuel rs1 = .error f ∧
    (f = .hang ∨ f = .outOfBounds) ∧ ∃ pre, pre <+: fxs' ∧ List.Forall₂ WithGaps fxs pre

/-- Neither the second playback head nor interpolation is turned on. -/
def PlainCalls (ts : List Call) : Prop := Call.set (.dual true) ∉ ts ∧ Call.set (.interpolation true) ∉ ts

/-- The same blocks on the same outputs, the same releases and events; the samples may differ. -/
def SameTiming (fx fx' : Fx) : Prop :=
  fx.allocated = fx'.allocated ∧ fx.released = fx'.released ∧ fx.event = fx'.event ∧
    List.Forall₂ (fun t t' : List Int × Nat => t.2 = t'.2 ∧ t.1.length = t'.1.length) fx.transmitted fx'.transmitted

/-- The same in everything but the samples remembered for interpolation. -/
def SamePlace (r r' : Rd) : Prop := { r with pts := r'.pts } = r'

/-- `playRaw` or `playWav` opened the file `m`: the reader `a` became `a'`, and `rs'` are the reads still to come. -/
def OpenedWith (g : Geo) (a : FileReader) (m : List Nat) (rs : List ReadResult) (a' : FileReader) (rs' : List ReadResult) : Prop :=
  (∃ past n, a.playRawF g (some ⟨m, 0, past⟩) n rs = .ok (true, a', rs')) ∨ ∃ past junk, a.playWavF g (some ⟨m, 0, past⟩) junk rs = .ok (true, a', rs')

end TVP.Spec
