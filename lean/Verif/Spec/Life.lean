import Verif.Spec.Anything
import Verif.Spec.Play

/-!
# A player and everything a program does with it, from the beginning
-/

namespace TVP.Spec

/-- What a program does with a file player: play a raw file with `n` channels, play a WAV file (`none`: there is no such file; `junk` is what the
stack held before the header was read), of a player whose events are polled or not; or one of the `Call`s. -/
inductive Use
  | raw (polled : Bool) (file : Option Dev) (n : Int)
  | wav (polled : Bool) (file : Option Dev) (junk : List Nat)
  | call (c : Call)

/-- A player through a list of these; `rs` are the results of the reads of samples to come.  `playRaw` and `playWav` stop the player first
(src/playresmp.h:48-74), which takes back the pending event unless events are polled. -/
def life (fp : Fp) (g : Geo) (nullOk : Bool) (fuel : Nat) : FilePlayer → List ReadResult → List Use → M (List Fx × FilePlayer × List ReadResult)
  | p, rs, [] => .ok ([], p, rs)
  | p, rs, .raw polled file n :: us => do
    let (_, a, rs) ← p.stop.rdr.playRawF g file n rs
    life fp g nullOk fuel ⟨a, if polled then p.pending else none⟩ rs us
  | p, rs, .wav polled file junk :: us => do
    let (_, a, rs) ← p.stop.rdr.playWavF g file junk rs
    life fp g nullOk fuel ⟨a, if polled then p.pending else none⟩ rs us
  | p, rs, .call c :: us => do
    let (fxs, p, rs) ← fileCalls fp g nullOk fuel p rs [c]
    let (fxs', x) ← life fp g nullOk fuel p rs us
    return (fxs ++ fxs', x)

/-- What the program keeps to: the highest speed, the last start position, the largest number of channels, and whether interpolation is used. -/
structure Limits where
  speed : Int
  start : Int
  channels : Int
  smooth : Bool

structure Limits.Fair (l : Limits) : Prop where
  speed0 : 1 ≤ l.speed
  speed1 : l.speed ≤ 2 ^ 30
  start0 : 0 ≤ l.start
  start1 : l.start ≤ 2 ^ 30
  channels0 : 1 ≤ l.channels
  channels1 : l.channels ≤ 32767
  smooth : l.smooth = true → l.channels ≤ 8

/-- A file of 36 bytes or more that is not a RIFF file and has a zero among the first 36 bytes; or a RIFF WAVE file whose first chunk is `fmt`, with a
sensible number of channels, whose LIST chunk ends in the file, and whose data chunk, if there is one, has a sensible length. -/
structure SafeWav (l : Limits) (m : List Nat) (past : Bool) : Prop where
  bytes : ∀ b ∈ m, b < 256
  long : 36 ≤ m.length
  short : m.length < 2 ^ 31
  tags : (slice m 0 4 = [82, 73, 70, 70] ∧ slice m 8 4 = [87, 65, 86, 69] ∧ slice m 12 4 = [102, 109, 116, 32]) ∨
    (slice m 0 4 ≠ [82, 73, 70, 70] ∧ 0 ∈ m.take 36)
  channels : slice m 0 4 = [82, 73, 70, 70] → 1 ≤ leVal (slice m 22 2) ∧ (leVal (slice m 22 2) : Int) ≤ l.channels
  list : ListInside m past
  data : ∀ off, DataAt m off →
    (m.length / 2 : Nat) + (leVal (slice m (off + 4) 4) / 2 : Nat) + (leVal (slice m 22 2) : Int) * (l.start + l.speed + 5) ≤ 2147483647

/-- Within the limits, forwards, without loops and second heads. -/
def Use.Within (l : Limits) : Use → Prop
  | .raw _ file n => 1 ≤ n ∧ n ≤ l.channels ∧ ∀ f, file = some f → f.size + n * (l.start + l.speed + 5) ≤ 2147483647
  | .wav _ file junk => ∀ f, file = some f → f.cur = 0 ∧ junk.length = 36 ∧ SafeWav l f.bytes f.past
  | .call (.update _) => True
  | .call .poll => True
  | .call (.set s) =>
    match s with
    | .speed v => 0 ≤ v ∧ v ≤ l.speed
    | .start _ x => 0 ≤ x ∧ x ≤ l.start
    | .interpolation b => b = true → l.smooth = true
    | .dual b => b = false
    | .loopType t => t = .none
    | .loopStart _ => False
    | .loopFinish _ => False
    | .fade _ => True
    | .stop => True
    | .stopPolled => True

/-- Whole blocks of samples. -/
def WholeBlocks (fx : Fx) : Prop := ∀ t ∈ fx.transmitted, t.1.length = 128 ∧ ∀ v ∈ t.1, -32768 ≤ v ∧ v ≤ 32767

end TVP.Spec
