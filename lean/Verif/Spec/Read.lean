import Mathlib.Data.Rat.Floor

/-!
# Which source frames playback should deliver (independent of the reader)

Positions are in frames; `x` is the exact starting position, `r` the rate.
-/

namespace TVP.Spec

/-- Forward playback of `F` frames: source frames `⌊x + k r⌋` for `k = 0, 1, ...`, up to the end, at most `n`. -/
def forwardFrames (x r : ℚ) (F : Int) (n : Nat) : List Int :=
  ((List.range n).map fun k : Nat => ⌊x + k * r⌋).takeWhile (· < F)

/-- Forward playback of `F` frames: exact positions `x + k r` inside the material, at most `n`. -/
def forwardPositions (x r : ℚ) (F : Int) (n : Nat) : List ℚ :=
  ((List.range n).map fun k : Nat => x + k * r).takeWhile (fun y => decide (⌊y⌋ < F))

/-- Reverse playback at speed `ρ` from position `x` down to frame `L`: frames `⌈x - k ρ⌉`. -/
def reverseFrames (x ρ : ℚ) (L : Int) (n : Nat) : List Int :=
  ((List.range n).map fun k : Nat => ⌈x - k * ρ⌉).takeWhile (L ≤ ·)

/-- Unit-rate repeat loop over `[a, b)` starting at frame `s`. -/
def repeatFrames (s a b : Int) (n : Nat) : List Int :=
  (List.range n).map fun k : Nat => a + (k + s - a) % (b - a)

/-- Unit-rate ping-pong over `[a, b)` starting forwards at frame `s`.  Going up: every frame of the loop; the way
down starts at frame `b - back` and ends at `a`. -/
def pingpongFrames (s a b back : Int) (n : Nat) : List Int :=
  (List.range n).map fun k : Nat =>
    let j := (k + s - a) % (2 * (b - a) - back + 1)
    if j < b - a then a + j else a + (2 * (b - a) - back - j)

/-- Frame `i` of interleaved samples with `nch` channels. -/
def frameOf (data : List Int) (nch : Nat) (i : Int) : List Int :=
  (List.range nch).map fun c => data.getD (i.toNat * nch + c) 0

end TVP.Spec
