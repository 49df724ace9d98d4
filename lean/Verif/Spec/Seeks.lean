import Mathlib.Data.List.Range

/-!
# Reading a file in order
-/

namespace TVP.Spec

/-- `n` blocks of `size` bytes, one after the other, from block number `first` on: where they begin. -/
def inOrder (size first n : Nat) : List Nat := (List.range n).map fun j => size * (first + j)

end TVP.Spec
