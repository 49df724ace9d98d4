import Verif.Fp

/-!
# `src/interpolation.cpp`

Floating-point expressions are modelled operation by operation in the order C++ fixes, each followed by
the rounding of its type (no excess precision, no contraction into fused multiply-add).
-/

namespace TVP

/-- Saturation at the end of both functions (src/interpolation.cpp:28-32, 49-53). -/
def clamp16 (v : Int) : Int :=
  if v < -32768 then -32768 else if v > 32767 then 32767 else v

/-- C `round`: to the nearest integer, halves away from zero. -/
def roundC (q : ℚ) : Int := if 0 ≤ q then ⌊q + 1 / 2⌋ else -⌊-q + 1 / 2⌋

/-- The inner loop of `interpolate` (src/interpolation.cpp:16-21): the term of node `i`.
`double(f[j].x)` is exact for a `uint32_t`.  Equal abscissae of two different nodes divide by zero; the
resulting infinity or NaN makes the final conversion undefined, which is reported here. -/
def interpTerm (fp : Fp) (pts : List (Int × Int)) (xi : ℚ) (i : Nat) (p : Int × Int) : M ℚ :=
  pts.zipIdx.foldlM (init := (p.2 : ℚ)) fun term (q, j) =>
    if j ≠ i then
      let den := fp.d.rnd ((p.1 : ℚ) - q.1)
      if den = 0 then .error .badCast
      else .ok (fp.d.rnd (fp.d.rnd (term * fp.d.rnd (xi - q.1)) / den))
    else .ok term

/-- `interpolate(f, xi, n)` (src/interpolation.cpp:11-33); `pts` are the `n` points `(x, y)`. -/
def interpolate (fp : Fp) (pts : List (Int × Int)) (xi : ℚ) : M Int := do
  let result ← pts.zipIdx.foldlM (init := (0 : ℚ)) fun acc (p, i) => do
    let term ← interpTerm fp pts xi i p
    return fp.d.rnd (acc + term)
  let r := roundC result
  if InI32 r then return clamp16 r else throw .badCast

/-- One coefficient group `(x_3 - a*x_2 + b*x_1)` of `fastinterpolate`, in `float`. -/
def fiPoly (f : Fp32) (x1 x2 x3 a b : ℚ) : ℚ :=
  f.rnd (f.rnd (x3 - f.rnd (a * x2)) + f.rnd (b * x1))

/-- One summand `d * p / c` of `fastinterpolate`, in `float`. -/
def fiTerm (f : Fp32) (d : Int) (p c : ℚ) : ℚ := f.rnd (f.rnd (d * p) / c)

/-- The value of the `float` expression of `fastinterpolate` (src/interpolation.cpp:37-46).  The
integer constants (up to 6000000000) are exactly representable as `float`. -/
def fiValue (fp : Fp) (d1 d2 d3 d4 : Int) (x : ℚ) : ℚ :=
  let f := fp.f
  let x1 := f.rnd (fp.d.rnd (x * 1000))
  let x2 := f.rnd (x1 * x1)
  let x3 := f.rnd (x2 * x1)
  let t1 := fiTerm f d1 (f.rnd (fiPoly f x1 x2 x3 6000 11000000 - 6000000000)) (-6000000000)
  let t2 := fiTerm f d2 (fiPoly f x1 x2 x3 5000 6000000) 2000000000
  let t3 := fiTerm f d3 (fiPoly f x1 x2 x3 4000 3000000) (-2000000000)
  let t4 := fiTerm f d4 (fiPoly f x1 x2 x3 3000 2000000) 6000000000
  f.rnd (f.rnd (f.rnd (t1 + t2) + t3) + t4)

/-- `fastinterpolate(d1, d2, d3, d4, x)` (src/interpolation.cpp:36-55). -/
def fastinterpolate (fp : Fp) (d1 d2 d3 d4 : Int) (x : ℚ) : M Int := do
  let result ← castI32 (fiValue fp d1 d2 d3 d4 x)
  return clamp16 result

end TVP
