import Verif.Base
import Verif.Fp
import Verif.Model.File
import Verif.Model.Wav
import Verif.Model.Interp
import Verif.Model.Cache
import Verif.Model.Reader
import Verif.Model.Play
import Verif.Model.Player
import Verif.Spec.Wav
import Verif.Spec.Play
import Verif.Lemmas.Wav
import Verif.Lemmas.Play
import Verif.Lemmas.Reader
import Verif.Props.Wav
import Verif.Props.Play
import Verif.Lemmas.Fp
import Verif.FpIEEE
import Verif.Spec.Interp
import Verif.Lemmas.Interp
import Verif.Props.Interp
import Verif.Props.Read
import Verif.Lemmas.Grid
import Verif.Lemmas.Trace
import Verif.Spec.Read
import Verif.Lemmas.Laws
import Verif.Lemmas.Loops
import Verif.Lemmas.ArrayPlay
import Verif.Lemmas.Drift
import Verif.Lemmas.Replay
import Verif.Lemmas.SrcInv
import Verif.Spec.Config
import Verif.Props.Config
import Verif.Props.Laws
import Verif.Props.Loops
import Verif.Lemmas.Mix
import Verif.Lemmas.Total
import Verif.Lemmas.Fade
import Verif.Lemmas.Dual
import Verif.Lemmas.Walk
import Verif.Lemmas.Safe
import Verif.Lemmas.Term
import Verif.Props.Safe
import Verif.Props.Fade
import Verif.Props.Term
import Verif.Spec.Cache
import Verif.Lemmas.Cache
import Verif.Lemmas.Reload
import Verif.Props.Cache
import Verif.Props.Reload
import Verif.Model.Interrupt
import Verif.Lemmas.Interrupt
import Verif.Props.Interrupt
import Verif.Lemmas.Window
import Verif.Lemmas.Stream
import Verif.Lemmas.Glide
import Verif.Props.Stream
import Verif.Spec.Sound
import Verif.Lemmas.Blocks
import Verif.Props.EndToEnd
import Verif.Props.Player
import Verif.Model.Time
import Verif.Model.Events
import Verif.Props.Time
import Verif.Spec.Queue
import Verif.Lemmas.Events
import Verif.Props.Events
import Verif.Lemmas.InterpPlay
import Verif.Props.InterpPlay
import Verif.Props.Conflict
import Verif.Props.LoopPoints
import Verif.Lemmas.WindowRev
import Verif.Lemmas.GlideRev
import Verif.Props.StreamRev
import Verif.Lemmas.LoopTicks
import Verif.Lemmas.LoopWindow
import Verif.Lemmas.LoopStream
import Verif.Props.LoopStream
import Verif.Props.LoopStreamRev
import Verif.Lemmas.PingWindow
import Verif.Lemmas.PingReader
import Verif.Lemmas.PingStream
import Verif.Lemmas.PingShort
import Verif.Lemmas.PingStart
import Verif.Props.PingStream
import Verif.Model.Heap
import Verif.Lemmas.Heap
import Verif.Props.Heap
import Verif.Props.Header
import Verif.Lemmas.Sim
import Verif.Lemmas.GlideInterp
import Verif.Props.StreamInterp
import Verif.Lemmas.Alike
import Verif.Props.Metadata
import Verif.Spec.Riff
import Verif.Props.Riff
import Verif.Lemmas.Acts
import Verif.Props.Speed
import Verif.Spec.Fade
import Verif.Lemmas.FadeLaw
import Verif.Lemmas.FadeRead
import Verif.Props.FadeLaw
import Verif.Lemmas.TraceTicks
import Verif.Lemmas.FadeSteps
import Verif.Lemmas.FadeStream
import Verif.Props.FadeStream
import Verif.Lemmas.SmoothLoop
import Verif.Props.SmoothLoop
import Verif.Lemmas.ListWindow
import Verif.Lemmas.LeaveLoop
import Verif.Props.LeaveLoop
import Verif.Lemmas.Starve
import Verif.Props.Starve
import Verif.Spec.Late
import Verif.Lemmas.Late
import Verif.Props.Late
import Verif.Model.Faulty
import Verif.Spec.Faulty
import Verif.Lemmas.Faulty
import Verif.Props.Faulty
import Verif.Model.Several
import Verif.Spec.Several
import Verif.Lemmas.Several
import Verif.Props.Several
import Verif.Model.Settings
import Verif.Spec.Anything
import Verif.Lemmas.Anything
import Verif.Lemmas.Place
import Verif.Lemmas.Shift
import Verif.Lemmas.Turned
import Verif.Lemmas.Written
import Verif.Props.Anything
import Verif.Lemmas.Beside
import Verif.Props.Gentle
import Verif.Spec.Life
import Verif.Lemmas.Life
import Verif.Props.Life
import Verif.Spec.Path
import Verif.Lemmas.Path
import Verif.Props.Path
import Verif.Spec.Cut
import Verif.Lemmas.CutTail
import Verif.Lemmas.Cut
import Verif.Props.Cut
import Verif.Spec.Smooth
import Verif.Lemmas.Smooth
import Verif.Props.Smooth
import Verif.Spec.Follow
import Verif.Lemmas.Follow
import Verif.Props.Follow
import Verif.Model.Seeks
import Verif.Spec.Seeks
import Verif.Lemmas.Seeks
import Verif.Props.Seeks
import Verif.Spec.Swing
import Verif.Lemmas.Swing
import Verif.Props.Swing
import Verif.Spec.Rounds
import Verif.Lemmas.Rounds
import Verif.Props.Rounds
import Verif.Spec.ToFro
import Verif.Lemmas.ToFro
import Verif.Props.ToFro
import Verif.Lemmas.Virtual
import Verif.Spec.Unroll
import Verif.Lemmas.Unroll
import Verif.Props.SmoothPath
import Verif.Props.Mirror
import Verif.Props.MirrorPing
import Verif.Props.RawPath
import Verif.Props.RawShift
import Verif.Props.Turn
import Verif.Props.WrittenOut
import Verif.Lemmas.Alone
import Verif.Props.Alone
import Verif.Lemmas.Trim
import Verif.Props.Trimmed
import Verif.Spec.Loud
import Verif.Lemmas.Loud
import Verif.Props.Loud
import Verif.Props.LoudHeads
import Verif.Spec.Polarity
import Verif.Lemmas.Polarity
import Verif.Props.Polarity
import Verif.Props.PolarityWav
import Verif.Lemmas.PolarityDef
import Verif.Props.PolarityDef
import Verif.Props.PolarityLoop
import Verif.Props.PolarityBack
import Verif.Props.Tune
import Verif.Props.TuneLoop
import Verif.Props.TuneAlike
