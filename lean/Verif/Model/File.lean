import Verif.Base

/-!
# Files as the library sees them

`SD`, `LittleFS` and `SerialFlash` are not part of the repository.  What the library uses of them is
`size`, `seek`, `read` and `close`, with the behaviour written here.
-/

namespace TVP

/-- An open file: its bytes, the read cursor, and what `seek` past the end does.
`past = true` (SerialFlash, LittleFS): the cursor moves there, reads return nothing.
`past = false` (SD/SdFat): the seek fails and the cursor stays. External, assumed. -/
structure Dev where
  bytes : List Nat
  cur   : Nat := 0
  past  : Bool := false
  deriving DecidableEq, Repr

/-- `file.size()` -/
def Dev.size (d : Dev) : Nat := d.bytes.length

/-- `file.seek(p)` -/
def Dev.seek (d : Dev) (p : Nat) : Dev :=
  if p ≤ d.bytes.length ∨ d.past = true then { d with cur := p } else d

/-- `file.read(buf, n)`: the bytes delivered (as many as there are, at most `n`) and the new file. -/
def Dev.read (d : Dev) (n : Nat) : List Nat × Dev :=
  let got := (d.bytes.drop d.cur).take n
  (got, { d with cur := d.cur + got.length })

/-- A byte buffer after `read` delivered `got` into its beginning. -/
def overlay (got buf : List Nat) : List Nat := got ++ buf.drop got.length

/-- Byte `i` of a memory block; outside it the access is undefined. -/
def byteAt (m : List Nat) (i : Nat) : M Nat :=
  match m[i]? with
  | some b => .ok b
  | none => .error .outOfBounds

/-- Little-endian 16-bit word, as the bytes lie in memory on the target. -/
def le16 (b0 b1 : Nat) : Nat := b0 + 256 * b1
/-- Little-endian 32-bit word: `b3 << 24 | b2 << 16 | b1 << 8 | b0` converted to unsigned
(src/waveheaderparser.h:94,111,124,127,144,171). -/
def le32 (b0 b1 b2 b3 : Nat) : Nat := b0 + 256 * b1 + 65536 * b2 + 16777216 * b3

end TVP
