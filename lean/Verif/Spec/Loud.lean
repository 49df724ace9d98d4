import Verif.Spec.Anything

/-!
# Loudness
-/

namespace TVP.Spec

/-- No sample handed to the audio library in this update exceeds `M` in magnitude. -/
def NoLouder (M : Int) (fx : Fx) : Prop := ∀ t ∈ fx.transmitted, ∀ v ∈ t.1, |v| ≤ M

/-- All of these are 16-bit samples of at most `M` in magnitude. -/
def AtMost (M : Int) (data : List Int) : Prop := ∀ v ∈ data, InI16 v ∧ |v| ≤ M

/-- The samples remembered for interpolation are 16-bit samples of at most `M` in magnitude, and the position between samples is within one sample. -/
def Remembers (M : Int) (r : Rd) : Prop := |r.rem| ≤ 1 ∧ ∀ c, AtMost M [(r.pts c).y0, (r.pts c).y1, (r.pts c).y2, (r.pts c).y3]

/-- The only settings changed are the speed and that playback is stopped. -/
def KeepsOn (ts : List Call) : Prop := ∀ s : Setting, Call.set s ∈ ts → s = .stop ∨ s = .stopPolled ∨ ∃ v, s = .speed v

end TVP.Spec
