import Verif.Model.Reader

/-!
# Specifications for configuration properties
-/

namespace TVP.Spec

/-- Which frame playback is documented to start at. -/
def startFrame (mode : PlayStart) (forward : Bool) (frames loopStart loopFinish user : Int) : Int :=
  match mode with
  | .arbitrary => user
  | .sample => if forward then 0 else frames - 1
  | .loop => if forward then loopStart else loopFinish - 1

/-- Everything that can be asked of a reader through its getters (src/ResamplingReader.h:554-556, 572-578, 659-661,
690-724), except the two positions. -/
structure Getters where
  playbackRate : ℚ
  loopType : LoopType
  available : Bool
  numChannels : Int
  crossfade : ℚ
  dual : Bool
  crossfadeDuration : Int
  loopStart : Int
  loopFinish : Int
  bufferInPSRAM : Bool

/-- The two getters of positions. -/
structure Positions where
  p1 : Int
  p2 : Int

end TVP.Spec

namespace TVP

/-- The values the getters return; `playbackRate()` returns `float`. -/
def Rd.getters (fp : Fp) (r : Rd) : Spec.Getters :=
  ⟨fp.f.rnd r.rate, r.loopType, r.playing, r.nch, r.crossfade, r.dual, r.cfDur, r.loopStart, r.loopFinish, r.psram⟩

/-- `getBufferPosition1`, `getBufferPosition2` (src/ResamplingReader.h:690-696). -/
def Rd.positions (r : Rd) : Spec.Positions := ⟨r.pos1, r.pos2⟩

end TVP
