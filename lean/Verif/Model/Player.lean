import Verif.Model.Play

/-!
# `AudioPlayResmp` (src/playresmp.h)

`AudioStream` (Teensy Audio library) is external: `allocate` may fail at any call (oracle `alloc`),
`transmit` hands a block to an output, `release` gives up the player's reference.
-/

namespace TVP

/-- The events raised by `update` (src/playresmp.h:14). -/
inductive Ev | reload | close
  deriving DecidableEq, Repr

/-- What one `update()` does to the outside world. -/
structure Fx where
  /-- allocation calls that succeeded, by channel -/
  allocated : List Nat := []
  /-- `transmit(block, output)`: the block's content and the output number -/
  transmitted : List (List Int × Nat) := []
  /-- channels whose block was released, in order -/
  released : List Nat := []
  /-- `triggerEvent` -/
  event : Option Ev := none
  deriving DecidableEq, Repr

/-- `AUDIO_BLOCK_SAMPLES` of the Teensy Audio library. -/
def blockSamples : Nat := 128

/-- The content of the block of channel `ch` after `read` and `memset` (src/playresmp.h:192-194). -/
def blockOf (frames : List (List Int)) (ch : Nat) : List Int :=
  frames.map (·.getD ch 0) ++ List.replicate (blockSamples - frames.length) 0

/-- `update()` (src/playresmp.h:166-218) for a reader whose `read` is `rd` (returning the frames and the
next reader state). `alloc i` tells whether the `i`-th `allocate()` succeeds. -/
def update {ρ : Type} (nch : Int) (playing : Bool) (rd : M (List (List Int) × ρ)) (st : ρ)
    (alloc : Nat → Bool) : M (Fx × ρ) := do
  if nch = -1 then return ({}, st)
  if nch < 0 then throw .badVLA
  if !playing then return ({}, st)
  let chans := List.range nch.toNat
  let got := chans.filter alloc
  if got.length = chans.length then
    let (frames, st) ← rd
    let tx := chans.map fun ch => (blockOf frames ch, ch)
    let tx := if nch = 1 then tx ++ [(blockOf frames 0, 1)] else tx
    return ({ allocated := got, transmitted := tx, released := got,
              event := some (if frames.length = blockSamples then .reload else .close) }, st)
  else
    return ({ allocated := got, released := got }, st)

/-- `update()` of a player on a file reader. -/
def FileReader.update (fp : Fp) (g : Geo) (nullOk : Bool) (fuel : Nat) (a : FileReader)
    (alloc : Nat → Bool) : M (Fx × FileReader) :=
  TVP.update a.rd.nch a.rd.playing (a.read fp g nullOk fuel blockSamples) a alloc

/-- `update()` of a player on an array reader. -/
def ArrayReader.update (fp : Fp) (fuel : Nat) (a : ArrayReader) (alloc : Nat → Bool) :
    M (Fx × ArrayReader) :=
  TVP.update a.rd.nch a.rd.playing (a.read fp fuel blockSamples) a alloc

/-- `event_response` for a file player (src/playresmp.h:23-42): what servicing an event does to the
reader. -/
def FileReader.service (fp : Fp) (g : Geo) (fuel : Nat) (a : FileReader) : Ev → M FileReader
  | .reload => a.triggerReload fp g fuel
  | .close => return a.close

/-- `event_response` for an array player. -/
def ArrayReader.service (a : ArrayReader) : Ev → ArrayReader
  | .reload => a.triggerReload
  | .close => a.close

/-! ## Players: a reader and an event responder -/

/-- A file player.  `pending` is the status of its event if it has been triggered and not yet run: triggering stores the
status whether or not the event is pending already (src/AudioEventResponder.h:121-128, and Teensy's `EventResponder` when
attached to `yield`).  The queue of several players' events is in `Verif.Model.Events`. -/
structure FilePlayer where
  rdr : FileReader := {}
  pending : Option Ev := none

/-- `update()` (src/playresmp.h:166-218) of a file player, with `triggerEvent`. -/
def FilePlayer.update (fp : Fp) (g : Geo) (nullOk : Bool) (fuel : Nat) (p : FilePlayer) (alloc : Nat → Bool) : M (Fx × FilePlayer) := do
  let (fx, r) ← p.rdr.update fp g nullOk fuel alloc
  match fx.event with
  | none => return (fx, { p with rdr := r })
  | some e => return (fx, ⟨r, some e⟩)

/-- Running the pending event: `runPolled` (src/AudioEventResponder.h:160-173) or `yield`; the event is no longer
pending when `event_response` (src/playresmp.h:23-42) runs. -/
def FilePlayer.runEvent (fp : Fp) (g : Geo) (fuel : Nat) (p : FilePlayer) : M FilePlayer :=
  match p.pending with
  | none => .ok p
  | some e => do return ⟨← p.rdr.service fp g fuel e, none⟩

/-- `stop()` (src/playresmp.h:155-160) of a player attached to `yield`: `clearEvent` takes its event off the list of `yield`.
For polled players see `FilePlayer.stopPolled`. -/
def FilePlayer.stop (p : FilePlayer) : FilePlayer := ⟨{ p.rdr with rd := p.rdr.rd.stop }, none⟩

/-- `playRaw(filename, numChannels)` (src/playresmp.h:48-60). -/
def FilePlayer.playRaw (g : Geo) (p : FilePlayer) (file : Option Dev) (n : Int) : M (Bool × FilePlayer) := do
  let (ok, r) ← p.stop.rdr.playRaw g file n
  return (ok, ⟨r, none⟩)

/-- `playWav(filename)` (src/playresmp.h:62-74). -/
def FilePlayer.playWav (g : Geo) (p : FilePlayer) (file : Option Dev) (junk : List Nat) : M (Bool × FilePlayer) := do
  let (ok, r) ← p.stop.rdr.playWav g file junk
  return (ok, ⟨r, none⟩)

/-- `stop()` of a polled player: `clearEvent` does not take its event off the list of polled events (`Evs.clear` in
`Verif.Model.Events`); what this means for the list is proved as `C63_stale_event`. -/
def FilePlayer.stopPolled (p : FilePlayer) : FilePlayer := ⟨{ p.rdr with rd := p.rdr.rd.stop }, p.pending⟩

/-- `playWav(filename)` (src/playresmp.h:62-74) of a polled player. -/
def FilePlayer.playWavPolled (g : Geo) (p : FilePlayer) (file : Option Dev) (junk : List Nat) : M (Bool × FilePlayer) := do
  let (ok, r) ← p.stopPolled.rdr.playWav g file junk
  return (ok, ⟨r, p.pending⟩)

/-- An array player.  Nothing in the library attaches a function to its event responder (src/playresmp.h:76-102), so that
triggering its event has no effect (src/AudioEventResponder.h:130-134 and `EventResponder`) and no event is ever run. -/
structure ArrayPlayer where
  rdr : ArrayReader := {}

/-- `update()` (src/playresmp.h:166-218) of an array player. -/
def ArrayPlayer.update (fp : Fp) (fuel : Nat) (p : ArrayPlayer) (alloc : Nat → Bool) : M (Fx × ArrayPlayer) := do
  let (fx, r) ← p.rdr.update fp fuel alloc
  return (fx, ⟨r⟩)

/-- `stop()` (src/playresmp.h:155-160). -/
def ArrayPlayer.stop (p : ArrayPlayer) : ArrayPlayer := ⟨{ p.rdr with rd := p.rdr.rd.stop }⟩

/-- `playRaw(data, numSamples, numChannels)` (src/playresmp.h:76-80). -/
def ArrayPlayer.playRaw (p : ArrayPlayer) (data : List Int) (len n : Int) : Bool × ArrayPlayer :=
  let (ok, r) := p.stop.rdr.playRaw data len n
  (ok, ⟨r⟩)

/-- `playWav(data)` (src/playresmp.h:98-102). -/
def ArrayPlayer.playWav (p : ArrayPlayer) (image : List Nat) : M (Bool × ArrayPlayer) := do
  let (ok, r) ← p.stop.rdr.playWav image
  return (ok, ⟨r⟩)

end TVP
