import Verif.Model.Player
import Verif.Spec.Wav
import Mathlib.Data.Rat.Floor

/-!
# What a player should send to its outputs (independent of readers and buffers)

Only the observable effects of an update (`Fx`) are used from the model.
-/

namespace TVP.Spec

/-- Sample `j` of the 16-bit data starting at byte `start` of the file `m`. -/
def dataSample (m : List Nat) (start j : Nat) : Int :=
  let v : Nat := leVal (slice m (start + 2 * j) 2)
  if v < 32768 then v else (v : Int) - 65536

/-- The `k`-th block of 128 samples of channel `ch`, playing at rate `r` from position `x` material of `F` frames whose frame
`i` has the samples `val i`: at time `t` the frame `⌊x + t r⌋`, silence after the end. -/
def soundBlock (val : Nat → Nat → Int) (F : Int) (x r : ℚ) (k ch : Nat) : List Int :=
  (List.range 128).map fun t =>
    if ⌊x + ((128 * k + t : Nat) : ℚ) * r⌋ < F then val ⌊x + ((128 * k + t : Nat) : ℚ) * r⌋.toNat ch else 0

/-- What happens at an update of a player that has `k` blocks behind it (`none`: that has ended): nothing after the end; if
some block cannot be allocated, those obtained are given back; otherwise one block per channel (mono: the same to both
outputs), then the event `close` if the material ended within the block (its last sample lies behind the end), else `reload`. -/
def soundStep (val : Nat → Nat → Int) (nch : Nat) (F : Int) (x r : ℚ) : Option Nat → (Nat → Bool) → Fx × Option Nat
  | none, _ => ({}, none)
  | some k, alloc =>
    if ∀ ch < nch, alloc ch = true then
      ({ allocated := List.range nch
         transmitted := (List.range nch).map (fun ch => (soundBlock val F x r k ch, ch)) ++
           (if nch = 1 then [(soundBlock val F x r k 0, 1)] else [])
         released := List.range nch
         event := some (if ⌊x + ((128 * k + 127 : Nat) : ℚ) * r⌋ < F then .reload else .close) },
       if ⌊x + ((128 * k + 127 : Nat) : ℚ) * r⌋ < F then some (k + 1) else none)
    else
      ({ allocated := (List.range nch).filter alloc, released := (List.range nch).filter alloc }, some k)

/-- A sequence of updates, given which allocations succeed in each. -/
def soundPlay (val : Nat → Nat → Int) (nch : Nat) (F : Int) (x r : ℚ) : Option Nat → List (Nat → Bool) → List Fx × Option Nat
  | st, [] => ([], st)
  | st, al :: als =>
    let (fx, st) := soundStep val nch F x r st al
    let (fxs, st) := soundPlay val nch F x r st als
    (fx :: fxs, st)

end TVP.Spec
