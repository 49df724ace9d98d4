import Verif.Model.Faulty

/-!
# The settings of a player (src/playresmp.h)
-/

namespace TVP

/-- The methods of `AudioPlayResmp` that change how it plays (src/playresmp.h:104-160): `setPlaybackRate`, `setLoopType`, `setLoopStart`,
`setLoopFinish`, `setUseDualPlaybackHead`, `setCrossfadeDurationInSamples`, `setPlayStart`, `enableInterpolation`, and `stop` of a player
attached to `yield` and of a polled one. -/
inductive Setting
  | speed (v : ℚ)
  | loopType (t : LoopType)
  | loopStart (l : Int)
  | loopFinish (l : Int)
  | dual (b : Bool)
  | fade (n : Int)
  | start (p : PlayStart) (x : Int)
  | interpolation (b : Bool)
  | stop
  | stopPolled

/-- What they do to the fields of the reader (src/ResamplingReader.h:208-213, 517-552, 565-570, 631-657, 674-677). -/
def Rd.set (r : Rd) : Setting → Rd
  | .speed v => r.setPlaybackRate v
  | .loopType t => r.setLoopType t
  | .loopStart l => r.setLoopStart l
  | .loopFinish l => r.setLoopFinish l
  | .dual b => r.setDual b
  | .fade n => r.setCfDur n
  | .start p x => r.setPlayStart p x
  | .interpolation b => r.setInterp (if b then .quadratic else .none)
  | .stop => r.stop
  | .stopPolled => r.stop

/-- On a file player (src/playresmp.h:104-160); `stop` of a player attached to `yield` takes its event back. -/
def FilePlayer.set (g : Geo) (p : FilePlayer) : Setting → FilePlayer
  | .loopType t => { p with rdr := p.rdr.setLoopType t }
  | .loopStart l => { p with rdr := p.rdr.setLoopStart g l }
  | .loopFinish l => { p with rdr := p.rdr.setLoopFinish g l }
  | .stop => p.stop
  | .stopPolled => p.stopPolled
  | s => { p with rdr := { p.rdr with rd := p.rdr.rd.set s } }

end TVP
