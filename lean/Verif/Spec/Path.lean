import Verif.Spec.Sound

/-!
# What a player should send to its outputs when it moves through the material in any way

A path says which frame is heard at each instant (`none`: none any more).  Only the observable effects of an update (`Fx`)
are used from the model.
-/

namespace TVP.Spec

/-- The `k`-th block of 128 samples of channel `ch` along a path: the frame's sample, silence where there is none. -/
def pathBlock (val : Nat → Nat → Int) (path : Nat → Option Nat) (k ch : Nat) : List Int :=
  (List.range 128).map fun t =>
    match path (128 * k + t) with
    | some i => val i ch
    | none => 0

/-- What happens at an update of a player that has `k` blocks behind it (`none`: that has ended): nothing after the end; if
some block cannot be allocated, those obtained are given back; otherwise one block per channel (mono: the same to both
outputs), then the event `close` if the path ended within the block, else `reload`. -/
def pathStep (val : Nat → Nat → Int) (nch : Nat) (path : Nat → Option Nat) : Option Nat → (Nat → Bool) → Fx × Option Nat
  | none, _ => ({}, none)
  | some k, alloc =>
    if ∀ ch < nch, alloc ch = true then
      ({ allocated := List.range nch
         transmitted := (List.range nch).map (fun ch => (pathBlock val path k ch, ch)) ++
           (if nch = 1 then [(pathBlock val path k 0, 1)] else [])
         released := List.range nch
         event := some (if (path (128 * k + 127)).isSome then .reload else .close) },
       if (path (128 * k + 127)).isSome then some (k + 1) else none)
    else
      ({ allocated := (List.range nch).filter alloc, released := (List.range nch).filter alloc }, some k)

/-- A sequence of updates, given which allocations succeed in each. -/
def pathPlay (val : Nat → Nat → Int) (nch : Nat) (path : Nat → Option Nat) : Option Nat → List (Nat → Bool) → List Fx × Option Nat
  | st, [] => ([], st)
  | st, al :: als =>
    let (fx, st) := pathStep val nch path st al
    let (fxs, st) := pathPlay val nch path st als
    (fx :: fxs, st)

/-- Backwards at the speed `ρ` from `x` down to frame `L`. -/
def backPath (x ρ : ℚ) (L : Int) (t : Nat) : Option Nat :=
  if L ≤ ⌈x - t * ρ⌉ then some ⌈x - t * ρ⌉.toNat else none

/-- Forwards from `x` at the speed `r`, round and round: a position at or behind the end `E` of the loop goes on at its start
`A`, keeping only its fraction. -/
def loopAt (A E : Int) (x r : ℚ) : Nat → ℚ
  | 0 => x
  | t + 1 =>
    let y := loopAt A E x r t + r
    if E ≤ ⌊y⌋ then A + Int.fract y else y

def loopPath (A E : Int) (x r : ℚ) (t : Nat) : Option Nat := some ⌊loopAt A E x r t⌋.toNat

/-- Backwards from `x` at the speed `ρ`, round and round: a position before the start `A` of the loop goes on `back` frames
before its end `E`, keeping only its fraction. -/
def loopBackAt (A E back : Int) (x ρ : ℚ) : Nat → ℚ
  | 0 => x
  | t + 1 =>
    let y := loopBackAt A E back x ρ t - ρ
    if ⌈y⌉ < A then (E - back : Int) + (y - ⌈y⌉) else y

def loopBackPath (A E back : Int) (x ρ : ℚ) (t : Nat) : Option Nat := some ⌈loopBackAt A E back x ρ t⌉.toNat

/-- To and fro at normal speed from frame `s` of the loop from `A` to `E`: up to the last frame, down from `back` frames before
the end to the first one, and so on. -/
def bouncePath (s A E back : Int) (t : Nat) : Option Nat :=
  let j := ((t : Int) + s - A) % (2 * (E - A) - back + 1)
  some (if j < E - A then A + j else A + (2 * (E - A) - back - j)).toNat

end TVP.Spec
