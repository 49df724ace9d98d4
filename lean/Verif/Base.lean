/-!
# Base: outcomes and C integer arithmetic

The machine modelled is the Teensy target of the library: 32-bit `int`, `long`, `unsigned`,
`size_t`; 16-bit `short`; two's complement; conversions between integer types are modular (what GCC
documents).  Integers are Lean `Int`s; every place where the C++ converts to a narrower or unsigned
type goes through one of the functions below, and every place where the C++ would be undefined
returns a `Fault` instead of a value.
-/

namespace TVP

/-- The ways an execution of the C++ can go wrong.  No `Fault` is a normal return. -/
inductive Fault
  /-- integer division by zero -/
  | divByZero
  /-- access outside an array, a `std::vector`, or the caller's memory block -/
  | outOfBounds
  /-- dereference of a null pointer -/
  | nullDeref
  /-- signed integer overflow -/
  | intOverflow
  /-- conversion of a floating-point value that does not fit the integer type (also NaN, infinity) -/
  | badCast
  /-- a variable-length array of negative size (size zero is accepted by GNU C++) -/
  | badVLA
  /-- `printf` reading through a `%s` argument that is not a terminated string -/
  | badFormat
  /-- a loop used up the fuel it was given -/
  | hang
  /-- access to an object that has been deleted or that an interrupted call is about to change -/
  | useAfterFree
  deriving DecidableEq, Repr

/-- Outcome of a C++ call: a value or a fault. -/
abbrev M (α : Type) := Except Fault α

/-- Conversion to `uint32_t` / `unsigned` / `size_t` (32-bit target). -/
def u32 (x : Int) : Int := x % 4294967296

/-- Conversion to `int32_t` / `int` / `long`. -/
def i32 (x : Int) : Int := (x + 2147483648) % 4294967296 - 2147483648

/-- Conversion to `int16_t` / `short`. -/
def i16 (x : Int) : Int := (x + 32768) % 65536 - 32768

/-- Conversion to `uint16_t`. -/
def u16 (x : Int) : Int := x % 65536

/-- Conversion to `uint64_t`. -/
def u64 (x : Int) : Int := x % 18446744073709551616

/-- `x` is a value of type `int` / `int32_t`. -/
def InI32 (x : Int) : Prop := -2147483648 ≤ x ∧ x ≤ 2147483647
/-- `x` is a value of type `int16_t`. -/
def InI16 (x : Int) : Prop := -32768 ≤ x ∧ x ≤ 32767
/-- `x` is a value of type `uint32_t`. -/
def InU32 (x : Int) : Prop := 0 ≤ x ∧ x ≤ 4294967295

instance (x : Int) : Decidable (InI32 x) := by unfold InI32; infer_instance
instance (x : Int) : Decidable (InI16 x) := by unfold InI16; infer_instance
instance (x : Int) : Decidable (InU32 x) := by unfold InU32; infer_instance

/-- Result of a signed `int` operation: the mathematical result, or overflow. -/
def chkI32 (x : Int) : M Int := if InI32 x then .ok x else .error .intOverflow

theorem u32_of_in {x : Int} (h : InU32 x) : u32 x = x := by unfold u32 InU32 at *; omega
theorem i32_of_in {x : Int} (h : InI32 x) : i32 x = x := by unfold i32 InI32 at *; omega
theorem i16_of_in {x : Int} (h : InI16 x) : i16 x = x := by unfold i16 InI16 at *; omega
theorem i32_u32 (x : Int) : i32 (u32 x) = i32 x := by unfold i32 u32; omega
theorem u32_i32 (x : Int) : u32 (i32 x) = u32 x := by unfold i32 u32; omega
theorem i32_in (x : Int) : InI32 (i32 x) := by unfold i32 InI32; omega
theorem i16_in (x : Int) : InI16 (i16 x) := by unfold i16 InI16; omega
theorem u32_in (x : Int) : InU32 (u32 x) := by unfold u32 InU32; omega
theorem chkI32_ok {x : Int} (h : InI32 x) : chkI32 x = .ok x := by simp [chkI32, h]

end TVP
