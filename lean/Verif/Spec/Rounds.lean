import Verif.Spec.Life

/-!
# A program that plays loops as well
-/

namespace TVP.Spec

/-- What such a program keeps to: the limits of `Limits`; the longest header in samples; every loop contains the frame `mid` and ends at frame `fin` or before, and
so does every sound. -/
structure Rounds extends Limits where
  header : Int
  mid : Int
  fin : Int

structure Rounds.Fair (l : Rounds) : Prop where
  limits : l.toLimits.Fair
  header : 22 ≤ l.header
  mid : 0 ≤ l.mid
  fin : l.mid < l.fin
  fits : l.header + l.channels * (l.fin + l.start + l.speed + 5) ≤ 2147483647

/-- A file of `size` bytes with `n` channels has enough for all buffers, wherever playing starts: the last of them gets half of its bytes at least. -/
def Rounds.Ample (l : Rounds) (g : Geo) (n : Int) (size : Int) : Prop :=
  2 * (((l.header + max l.mid l.start * n) / g.B + (g.N : Int) - 1) * g.B) + g.B ≤ size

/-- A WAV file that is safe for loops: the data chunk, if there is one, starts early enough, and it is long enough for every loop and not longer than agreed. -/
structure RoundWav (l : Rounds) (g : Geo) (m : List Nat) (past : Bool) : Prop where
  safe : SafeWav l.toLimits m past
  header : slice m 36 4 = [76, 73, 83, 84] → (((44 + leVal (slice m 40 4) + 8) / 2 : Nat) : Int) ≤ l.header
  data : ∀ off, DataAt m off → l.mid < ((leVal (slice m (off + 4) 4) / 2 : Nat) : Int) / (leVal (slice m 22 2) : Int) ∧
    ((leVal (slice m (off + 4) 4) / 2 : Nat) : Int) / (leVal (slice m 22 2) : Int) ≤ l.fin ∧ l.Ample g (leVal (slice m 22 2)) m.length

/-- Within the limits, forwards, with loops, without second heads and loops to and fro. -/
def Use.Round (l : Rounds) (g : Geo) : Use → Prop
  | .raw _ file n => 1 ≤ n ∧ n ≤ l.channels ∧ ∀ f, file = some f → (f.size : Int) ≤ 2147483647 ∧ l.mid < (f.size : Int) / 2 / n ∧ (f.size : Int) / 2 / n ≤ l.fin ∧ l.Ample g n f.size
  | .wav _ file junk => ∀ f, file = some f → f.cur = 0 ∧ junk.length = 36 ∧ RoundWav l g f.bytes f.past
  | .call (.update _) => True
  | .call .poll => True
  | .call (.set s) =>
    match s with
    | .speed v => 0 ≤ v ∧ v ≤ l.speed
    | .start _ x => 0 ≤ x ∧ x ≤ l.start
    | .interpolation b => b = true → l.smooth = true
    | .dual b => b = false
    | .loopType t => t ≠ .pingpong
    | .loopStart x => 0 ≤ x ∧ x ≤ l.mid
    | .loopFinish x => l.mid < x ∧ x ≤ l.fin
    | .fade _ => True
    | .stop => True
    | .stopPolled => True

/-- Reads of samples that come up short deliver half a block of samples at least; they may fail. -/
def HalfReads (g : Geo) (rs : List ReadResult) : Prop := ∀ n, ReadResult.short n ∈ rs → g.B ≤ n

end TVP.Spec
