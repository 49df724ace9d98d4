import Verif.Model.Interp
import Verif.Model.Cache

/-!
# `ResamplingReader`: configuration, positioning and `read` (src/ResamplingReader.h)

The source of samples is abstract here (`Src`): `Model/Play.lean` supplies arrays and cached files.
-/

namespace TVP

/-- `play_start` (src/loop_type.h:14-18). -/
inductive PlayStart | sample | loop | arbitrary
  deriving DecidableEq, Repr

/-- `ResampleInterpolationType` (src/interpolation.h:11-15). -/
inductive Interp | none | linear | quadratic
  deriving DecidableEq, Repr

/-- `getSourceBufferValue` of a concrete reader over state `σ`. -/
structure Src (σ : Type) where
  get : σ → Int → M (Int × σ)

/-- `_numInterpolationPoints[c]` and the ordinates of `_interpolationPoints[c][0..3]`.  The abscissae
are never read and are left out. -/
structure Pts where
  n : Nat := 0
  y0 : Int := 0
  y1 : Int := 0
  y2 : Int := 0
  y3 : Int := 0
  deriving DecidableEq, Repr

/-- The fields of `ResamplingReader` (src/ResamplingReader.h:728-755); `fileSize` is uninitialised
before `begin()`, here 0.  The source pointer and file name are in `Model/Play.lean`. -/
structure Rd where
  playing : Bool := false
  fileSize : Int := 0
  header : Int := 0
  rate : ℚ := 1
  rem : ℚ := 0
  loopType : LoopType := .none
  playStart : PlayStart := .sample
  pos1 : Int := 0
  pos2 : Int := 0
  crossfade : ℚ := 0
  dual : Bool := false
  cfDur : Int := 256
  cfOn : Bool := false
  playbackStart : Int := 0
  loopStart : Int := 0
  loopFinish : Int := 0
  fileSamples : Int := 0
  nch : Int := -1
  psram : Bool := false
  interp : Interp := .none
  pts : Nat → Pts := fun _ => {}

/-- `_samples_to_start` (src/ResamplingReader.h:626-629): unsigned arithmetic. -/
def Rd.s2s (r : Rd) (x : Int) : Int := u32 (r.header + x * r.nch)

/-- `int32_t(_samples_to_start(x))`, also the value stored by `_bufferPosition = _samples_to_start(x)`. -/
def Rd.posOf (r : Rd) (x : Int) : Int := i32 (r.s2s x)

/-- `_getSourceBufferValue` (src/ResamplingReader.h:759-760); the index is `int` arithmetic. -/
def srcVal {σ} (S : Src σ) (r : Rd) (s : σ) (pos off : Int) (ch : Nat) : M (Int × σ) := do
  let p ← chkI32 (pos + off * r.nch)
  let p ← chkI32 (p + ch)
  S.get s p

/-- `_addInterpolationPoint` (src/ResamplingReader.h:762-785), for a channel below `MAX_CHANNELS = 8`. -/
def addPoint (r : Rd) (ch : Nat) (y : Int) : M Rd :=
  match r.interp with
  | .none => .ok r
  | .linear =>
    if ch < 8 then
      let p := r.pts ch
      let q : Pts := { p with y0 := p.y1, y1 := y, n := if p.n < 2 then p.n + 1 else p.n }
      .ok { r with pts := Function.update r.pts ch q }
    else .error .outOfBounds
  | .quadratic =>
    if ch < 8 then
      let p := r.pts ch
      let q : Pts := ⟨if p.n < 4 then p.n + 1 else p.n, p.y1, p.y2, p.y3, y⟩
      .ok { r with pts := Function.update r.pts ch q }
    else .error .outOfBounds

/-- Access to the interpolation arrays of a channel. -/
def ptsOf (r : Rd) (ch : Nat) : M Pts := if ch < 8 then .ok (r.pts ch) else .error .outOfBounds

/-- The end-of-material tests of `readNextValue` (src/ResamplingReader.h:368-391). -/
def Rd.atEnd (r : Rd) : Bool :=
  if r.dual then false
  else if r.rate ≥ 0 then
    if r.loopType = .none then decide (r.pos1 ≥ r.posOf r.fileSamples)
    else decide (r.pos1 ≥ r.posOf r.loopFinish)
  else
    if r.playStart = .sample then decide (r.pos1 < r.header)
    else decide (r.pos1 < r.posOf r.loopStart)

/-- The uninterpolated value (src/ResamplingReader.h:393-403). -/
def baseVal (fp : Fp) {σ} (S : Src σ) (r : Rd) (s : σ) (ch : Nat) : M (Int × σ) := do
  if !r.dual || !r.cfOn then
    srcVal S r s r.pos1 0 ch
  else if r.crossfade = 0 then
    srcVal S r s r.pos2 0 ch
  else
    let (v1, s) ← srcVal S r s r.pos1 0 ch
    let (v2, s) ← srcVal S r s r.pos2 0 ch
    let d := fp.d.rnd
    let v ← castI16 (d (d (d (1 - r.crossfade) * v2) + d (r.crossfade * v1)))
    return (v, s)

/-- Linear interpolation (src/ResamplingReader.h:405-441); `v` is the uninterpolated value.  The
comparison `_bufferPosition1 - _numChannels > _header_offset * 2` is done without wrapping. -/
def linearVal (fp : Fp) {σ} (S : Src σ) (r : Rd) (s : σ) (ch : Nat) (v : Int) : M (Int × Rd × σ) := do
  let d := fp.d.rnd
  let a := |r.rem|
  if a > 0 then
    let (r, s) ← (do
      if r.rate > 0 then
        if d (r.rem - r.rate) < 0 then
          let p ← ptsOf r ch
          if !r.dual && p.n < 2 && r.rate > 1 && r.pos1 - r.nch > r.header * 2 then
            let (y, s) ← srcVal S r s r.pos1 (-1) ch
            let r := { r with pts := Function.update r.pts ch { p with y1 := y } }
            return (← addPoint r ch v, s)
          else return (← addPoint r ch v, s)
        else return (r, s)
      else if r.rate < 0 then
        if d (r.rem - r.rate) > 0 then
          let p ← ptsOf r ch
          if !r.dual && p.n < 2 && r.rate < -1 then
            let (y, s) ← srcVal S r s r.pos1 1 ch
            let r := { r with pts := Function.update r.pts ch { p with y1 := y } }
            return (← addPoint r ch v, s)
          else return (← addPoint r ch v, s)
        else return (r, s)
      else return (r, s) : M (Rd × σ))
    let p ← ptsOf r ch
    if p.n > 1 then
      let v ← castI16 (d (d (a * p.y1) + d (d (1 - a) * p.y0)))
      return (v, r, s)
    else return (v, r, s)
  else
    let r ← addPoint r ch v
    let p ← ptsOf r ch
    return (p.y0, r, s)

/-- The loops that push source samples for cubic interpolation (src/ResamplingReader.h:451-460,
469-477), for `i` from `k` down to 1. -/
def pushLoop (fp : Fp) {σ} (S : Src σ) (fwd : Bool) (ch : Nat) : (k : Nat) → Rd → σ → M (Rd × σ)
  | 0, r, s => .ok (r, s)
  | k + 1, r, s => do
    let off : Int := if fwd then -(k : Int) else k
    let (y, s) ← srcVal S r s r.pos1 off ch
    let (y, s) ← (do
      if r.dual && r.cfOn then
        let (v2, s) ← srcVal S r s r.pos2 (if r.loopType = .pingpong then -off else off) ch
        let d := fp.d.rnd
        let y ← castI16 (d (d (y * r.crossfade) + d (v2 * d (1 - r.crossfade))))
        return (y, s)
      else return (y, s) : M (Int × σ))
    let r ← addPoint r ch y
    pushLoop fp S fwd ch k r s

/-- "Quadratic" (in fact cubic) interpolation (src/ResamplingReader.h:442-493).  The `else` branch of
`if (true || ...)` (lines 494-508) is dead code. -/
def quadVal (fp : Fp) {σ} (S : Src σ) (r : Rd) (s : σ) (ch : Nat) : M (Int × Rd × σ) := do
  let d := fp.d.rnd
  let a := |r.rem|
  let (r, s) ← (do
    if r.rate > 0 then
      let t := d (r.rem - r.rate)
      if t < 0 then
        let k ← castI32 (-(⌊t⌋ : ℚ))
        pushLoop fp S true ch (min k 4).toNat r s
      else return (r, s)
    else if r.rate < 0 then
      let t := d (r.rem - r.rate)
      if t > 0 then
        let k ← castI32 (⌈t⌉ : ℚ)
        pushLoop fp S false ch (min k 4).toNat r s
      else return (r, s)
    else return (r, s) : M (Rd × σ))
  let p ← ptsOf r ch
  if p.n ≥ 4 then
    let v ← fastinterpolate fp p.y0 p.y1 p.y2 p.y3 (fp.f.rnd (d (1 + a)))
    return (v, r, s)
  else return (0, r, s)

/-- `readNextValue` (src/ResamplingReader.h:367-514); `none` is the `false` result. -/
def readNextValue (fp : Fp) {σ} (S : Src σ) (r : Rd) (s : σ) (ch : Nat) : M (Option Int × Rd × σ) := do
  if r.atEnd then return (none, r, s)
  let (v, s) ← baseVal fp S r s ch
  match r.interp with
  | .none => return (some v, r, s)
  | .linear =>
    let (v, r, s) ← linearVal fp S r s ch v
    return (some v, r, s)
  | .quadratic =>
    let (v, r, s) ← quadVal fp S r s ch
    return (some v, r, s)

/-- What `read` does when `readNextValue` says there is no more material
(src/ResamplingReader.h:253-288); `none` is the early return. -/
def wrapAround (r : Rd) : Option Rd :=
  let r := { r with cfOn := false }
  match r.loopType with
  | .repeat =>
    some { r with pos1 := if r.rate ≥ 0 then r.posOf r.loopStart else r.posOf (r.loopFinish - r.nch) }
  | .pingpong =>
    some { r with
      pos1 := if r.rate ≥ 0 then r.posOf (r.loopFinish - r.nch)
              else if r.playStart = .sample then r.header else r.posOf r.loopStart
      rate := -r.rate }
  | .none => none

/-- The inner `while (!readOK)` loop for one channel (src/ResamplingReader.h:236-290).  A `none` value is
the early return at the end of the material. -/
def readChan (fp : Fp) {σ} (S : Src σ) : (fuel : Nat) → Rd → σ → Nat → M (Option Int × Rd × σ)
  | 0, _, _, _ => .error .hang
  | fuel + 1, r, s, ch => do
    match ← readNextValue fp S r s ch with
    | (some v, r, s) => return (some v, r, s)
    | (none, r, s) =>
      match wrapAround r with
      | some r => readChan fp S fuel r s ch
      | none => return (none, { r with cfOn := false }, s)

/-- The loop over channels for one frame (src/ResamplingReader.h:234-291), from channel `ch` with
`left` channels to go; the values delivered and whether the frame was completed. -/
def readFrame (fp : Fp) {σ} (S : Src σ) (fuel : Nat) :
    (left : Nat) → (ch : Nat) → Rd → σ → M (List Int × Bool × Rd × σ)
  | 0, _, r, s => .ok ([], true, r, s)
  | left + 1, ch, r, s => do
    match ← readChan fp S fuel r s ch with
    | (none, r, s) => return ([], false, r, s)
    | (some v, r, s) =>
      let (vs, ok, r, s) ← readFrame fp S fuel left (ch + 1) r s
      return (v :: vs, ok, r, s)

/-- Stepping the positions on (src/ResamplingReader.h:294-305). -/
def stepOn (fp : Fp) (r : Rd) : M Rd := do
  let d := fp.d.rnd
  let rem := d (r.rem + r.rate)
  let delta ← castI32 rem
  let rem := d (rem - delta)
  let step ← chkI32 (delta * r.nch)
  let pos1 ← chkI32 (r.pos1 + step)
  if r.cfOn then
    let pos2 ← chkI32 (if r.loopType = .pingpong then r.pos2 - step else r.pos2 + step)
    return { r with rem := rem, pos1 := pos1, pos2 := pos2 }
  else return { r with rem := rem, pos1 := pos1 }

/-- The cross-fade weight (src/ResamplingReader.h:346, 356): `dist` is the unsigned distance in samples
of the second head from where it started.  Zero duration divides by zero; the NaN or infinity it gives
makes the conversion of the mixed sample in the same frame undefined, which is reported here. -/
def fadeWeight (fp : Fp) (r : Rd) (dist : Int) : M ℚ :=
  if r.cfDur = 0 then .error .badCast
  else if r.nch = 0 then .error .divByZero
  else .ok (fp.d.rnd (1 - fp.d.rnd (((u32 dist / u32 r.nch : Int) : ℚ) / r.cfDur)))

/-- The first half of `_updateCrossfade`: entering the cross-fade zone (src/ResamplingReader.h:313-333). -/
def fadeEnter (r : Rd) : Rd :=
  if r.rate ≥ 0 then
    if !r.cfOn && r.pos1 ≥ r.posOf (r.loopFinish - r.cfDur) then
      { r with pos2 := r.posOf (if r.loopType = .pingpong then r.loopFinish else r.loopStart), cfOn := true }
    else r
  else
    if !r.cfOn && r.pos1 ≤ r.posOf (r.loopStart + r.cfDur) then
      { r with pos2 := r.posOf (if r.loopType = .pingpong then r.loopStart else r.loopFinish), cfOn := true }
    else r

/-- `_updateCrossfade` (src/ResamplingReader.h:311-364). -/
def updateCrossfade (fp : Fp) (r : Rd) : M Rd := do
  let r := fadeEnter r
  if r.cfOn then
    let r ← (do
      if decide (r.loopType = .pingpong) != decide (r.rate > 0) then
        if r.pos2 > r.posOf (r.loopStart + r.cfDur) then
          return { r with pos1 := r.pos2, cfOn := false }
        else
          return { r with crossfade := ← fadeWeight fp r (r.pos2 - r.s2s r.loopStart) }
      else
        if r.pos2 < r.posOf (r.loopFinish - r.cfDur) then
          return { r with pos1 := r.pos2, cfOn := false }
        else
          return { r with crossfade := ← fadeWeight fp r (r.s2s r.loopFinish - r.pos2) } : M Rd)
    if !r.cfOn && r.loopType = .pingpong then return { r with rate := -r.rate }
    else return r
  else return r

/-- Result of `read`: complete frames (one list per frame, one value per channel), values already
written to the first channels of a frame that could not be completed, and the state. The return value
of the C++ function is the number of complete frames. -/
structure ReadOut (σ : Type) where
  frames : List (List Int)
  extra : List Int
  r : Rd
  s : σ

/-- The `while (count < nsamples)` loop (src/ResamplingReader.h:227-306), `n` frames to go. -/
def readLoop (fp : Fp) {σ} (S : Src σ) (fuel : Nat) : (n : Nat) → Rd → σ → M (ReadOut σ)
  | 0, r, s => .ok ⟨[], [], r, s⟩
  | n + 1, r, s => do
    let r ← if r.dual then updateCrossfade fp r else pure r
    let (vs, ok, r, s) ← readFrame fp S fuel r.nch.toNat 0 r s
    if ok then
      let r ← stepOn fp r
      let o ← readLoop fp S fuel n r s
      return { o with frames := vs :: o.frames }
    else return ⟨[], vs, r, s⟩

/-- `read(buf, nsamples)` (src/ResamplingReader.h:217-308).  `index[_numChannels]` is a variable-length
array; with zero channels `count` never advances. -/
def Rd.read (fp : Fp) {σ} (S : Src σ) (fuel : Nat) (r : Rd) (s : σ) (n : Nat) : M (ReadOut σ) :=
  if !r.playing then .ok ⟨[], [], r, s⟩
  else if r.nch < 0 then .error .badVLA
  else if r.nch = 0 then (if n = 0 then .ok ⟨[], [], r, s⟩ else .error .hang)
  else readLoop fp S fuel n r s

/-- `stop` (src/ResamplingReader.h:208-213). -/
def Rd.stop (r : Rd) : Rd := { r with playing := false }

/-- `reset` (src/ResamplingReader.h:580-622).  `initializeInterpolationPoints` is empty (line 757). -/
def Rd.reset (r : Rd) : Rd :=
  let r := { r with pts := fun c => if c < 8 then { r.pts c with n := 0 } else r.pts c }
  let pos1 :=
    if r.rate ≥ 0 then
      match r.playStart with
      | .sample => r.posOf 0
      | .loop => r.posOf r.loopStart
      | .arbitrary => r.posOf r.playbackStart
    else
      match r.playStart with
      | .sample => i32 (r.fileSize.tdiv 2 - r.nch)
      | .loop => r.posOf (r.loopFinish - r.nch)
      | .arbitrary => r.posOf r.playbackStart
  { r with pos1 := pos1, crossfade := 0, cfOn := false }

/-- `begin` (src/ResamplingReader.h:27-39). -/
def Rd.begin (r : Rd) : Rd :=
  { r with playing := false, crossfade := 0,
           pos1 := if r.playStart = .sample then r.header else r.loopStart, fileSize := 0 }

/-- `play()` (src/ResamplingReader.h:200-206). -/
def Rd.play (r : Rd) : Rd := { r.stop.reset with playing := true }

/-- `setPlaybackRate(f)` (src/ResamplingReader.h:517-552). -/
def Rd.setPlaybackRate (r : Rd) (f : ℚ) : Rd :=
  let r := { r with rate := f }
  if !r.dual then
    if f < 0 then
      if r.pos1 ≤ r.header then
        { r with pos1 := if r.playStart = .sample then r.posOf (r.fileSamples - 1)
                         else r.posOf (r.loopFinish - 1) }
      else r
    else
      if r.pos1 < r.header then
        { r with pos1 := if r.playStart = .sample then r.posOf 0 else r.posOf r.loopStart }
      else r
  else if r.crossfade = 0 then
    if f < 0 then
      if r.pos1 ≤ r.header then
        { r with pos1 := if r.playStart = .sample then r.posOf (r.fileSamples - 1)
                         else r.posOf (r.loopFinish - 1) }
      else r
    else
      if r.pos1 < r.header then { r with pos1 := r.header } else r
  else r

/-- `loop(numSamples)` (src/ResamplingReader.h:558-563); `numSamples` is unsigned. -/
def Rd.loop (r : Rd) (numSamples : Int) : M Rd :=
  let p := if r.crossfade < 1 then r.pos1 else r.pos2
  if r.nch = 0 then .error .divByZero
  else .ok { r with loopStart := p.tdiv r.nch, loopFinish := i32 (p.tdiv r.nch + numSamples),
                    loopType := .repeat }

/-- `setLoopType` (src/ResamplingReader.h:565-570), without the cache. -/
def Rd.setLoopType (r : Rd) (t : LoopType) : Rd := { r with loopType := t }
/-- `setLoopStart` (src/ResamplingReader.h:631-635), without the cache; the argument is `uint32_t`. -/
def Rd.setLoopStart (r : Rd) (l : Int) : Rd := { r with loopStart := i32 l }
/-- `setLoopFinish` (src/ResamplingReader.h:637-642), without the cache. -/
def Rd.setLoopFinish (r : Rd) (l : Int) : Rd := { r with loopFinish := i32 l }
/-- `setUseDualPlaybackHead` (src/ResamplingReader.h:644-646). -/
def Rd.setDual (r : Rd) (b : Bool) : Rd := { r with dual := b }
/-- `setCrossfadeDurationInSamples` (src/ResamplingReader.h:648-650). -/
def Rd.setCfDur (r : Rd) (n : Int) : Rd := { r with cfDur := u32 n }
/-- `setInterpolationType` (src/ResamplingReader.h:652-657). -/
def Rd.setInterp (r : Rd) (t : Interp) : Rd := { r with interp := t }
/-- `setNumChannels(uint16_t)` (src/ResamplingReader.h:663-668). -/
def Rd.setNumChannels (r : Rd) (n : Int) : Rd := if u16 n ≠ r.nch then { r with nch := i16 n } else r
/-- `setHeaderSizeInBytes` (src/ResamplingReader.h:670-672). -/
def Rd.setHeaderSize (r : Rd) (n : Int) : Rd := { r with header := u32 n / 2 }
/-- `setPlayStart` (src/ResamplingReader.h:674-677). -/
def Rd.setPlayStart (r : Rd) (p : PlayStart) (x : Int) : Rd := { r with playStart := p, playbackStart := i32 x }
/-- `setBufferInPSRAM` (src/ResamplingReader.h:718-720). -/
def Rd.setPSRAM (r : Rd) (b : Bool) : Rd := { r with psram := b }

/-- `lengthMillis` (src/ResamplingReader.h:679-688 and the same code in the concrete readers).
`b2m` is the constant `B2M`; `(uint64_t)_file_size` of a negative size wraps. -/
def lengthMillis (b2m fileSize : Int) : Int := u32 (u64 (u64 fileSize * b2m) / 4294967296)

/-- `positionMillis` of the file readers (src/ResamplingSdReader.h:76-87, src/ResamplingLfsReader.h and
src/ResamplingSerialFlashReader.h:72-83). -/
def Rd.positionMillis (fp : Fp) (b2m : Int) (r : Rd) : M Int :=
  if r.fileSize = 0 then .ok 0
  else
    let pos := if !r.dual then r.pos1 else if r.crossfade < 1 / 2 then r.pos1 else r.pos2
    let den := r.fileSize.tdiv 2
    if den = 0 then .error .badCast
    else castU32 (fp.d.rnd (fp.d.rnd (pos * lengthMillis b2m r.fileSize) / den))

end TVP
