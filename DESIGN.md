# Design: a Lean 4 model of teensy-variable-playback

Source: `/repo` (newdigate/teensy-variable-playback), read as text only. Nothing in `/repo` was built, run or changed.

## Trusted base

* The Lean 4.33.0 kernel and the axioms `propext`, `Classical.choice`, `Quot.sound`. No axioms of our own, no `sorry`,
  no `native_decide`, no `bv_decide`.
* That the definitions under `lean/Verif/Model/` say what the cited C++ lines say. Every definition cites file and lines.
* The assumptions about code outside the repository listed below.

## Machine model

* `Verif/Base.lean`: 32-bit target (`int`, `long`, `size_t` 32 bits, `short` 16), two's complement. Integers are `Int`
  with explicit `u32/i32/i16/u16/u64` conversions. Signed overflow, out-of-bounds access, null dereference, division by
  zero, a float-to-int cast out of range, a VLA of negative size, `%s` of a non-string and an endless loop
  (exhausted fuel) are *faults*: `M α = Except Fault α`. A function "returns" iff its result is `.ok`.
* `Verif/Fp.lean`: `float`/`double` are rationals; each operation is the exact operation followed by a rounding function.
  Theorems quantify over every rounding that is monotone and exact on representable numbers (all IEEE modes).
  `Verif/FpIEEE.lean` constructs round-to-nearest-even as an instance. Not modelled: NaN and infinity as values (an
  operation that would produce one is a fault), exponent overflow, the sign of zero.
* Loops that need not terminate take fuel. "Terminates" = an explicit fuel suffices; "hangs" = `.error .hang` for every fuel.

## What is modelled (module - source)

| module | source |
|---|---|
| `Model/File.lean` | the file API the library uses (size, seek, read); external, assumed |
| `Model/Wav.lean` | `src/waveheaderparser.h` |
| `Model/Interp.lean` | `src/interpolation.cpp` |
| `Model/Cache.lean` | `src/IndexableFile.h` (TEENSYDUINO branch): preload, reload, lookup |
| `Model/Reader.lean` | `src/ResamplingReader.h`: read, readNextValue, _updateCrossfade, reset, setters |
| `Model/Play.lean` | `src/ResamplingReader.h`: play/playRaw/playWav, close of the concrete readers |
| `Model/Player.lean` | `src/playresmp.h`: update, event_response, play and stop of players |
| `Model/Events.lean` | `src/AudioEventResponder.{h,cpp}` and what is used of the Teensy core's `EventResponder` |
| `Model/Time.lean` | `lengthMillis`, `positionMillis` of `src/playresmp.h` and `src/ResamplingReader.h` |
| `Model/Interrupt.lean` | `triggerReload` in small steps with audio reads between any two steps |
| `Model/Conflict.lean` | player calls in small steps with `update()` between any two steps |
| `Model/Faulty.lean` | `loadBuffer`, preload and reload once more, with reads that fail or deliver less than was asked for |
| `Model/Seeks.lean` | the places in the file where preload and reload read |
| `Model/Several.lean` | any number of players with the list of polled events: updates, `runPolled`, speeds |
| `Model/Settings.lean` | the setters of `src/playresmp.h` as one type of calls |
| `Model/Heap.lean` | allocation and release: readers, file names, source buffers, block buffers and their samples |

## What is not modelled, and where the model is simpler than the code

* Exhausted memory (allocations in `Model/Heap.lean` succeed), the text of log messages (except where printing it is undefined),
  `getStatus` strings, `InterpolationData::x` (never read by the reader). Where a buffer's samples are placed (PSRAM or not)
  matters only in `Model/Heap.lean`; speed differences are not modelled.
* The Linux branch of `loadBuffer` that reopens the file, and `src/TeensyVariablePlayback.h`, CMake files, examples, tests.
* The int subtractions `_loop_finish - _numChannels`, `_file_samples - 1` wrap instead of faulting at INT_MIN. The block number arithmetic
  of `triggerReload` and the position comparison of the linear interpolation are done without wrapping (the values
  stay far below 2^31 for files below 2^31 bytes). The miss counter `fails` is unbounded. `log2(BUFFER_SIZE)` is exact.
* The compiler is assumed not to contract `a * b + c` into one rounding (FMA).
* Timing. "Reload after every update" is a schedule hypothesis, stated in the theorems that need it.
* In the interrupt models one step is one assignment to a shared field or one section with interrupts disabled, and stores reach memory in
  program order. In the code `_playing` is `volatile`, the other fields and the vector are not; a compiler that moves their stores across it or across calls
  is outside the model.

## Assumptions about external code

* `SD`, `LittleFS`, `SerialFlash` files: `read` delivers the available bytes at the cursor; `seek` inside the file
  succeeds; `seek` past the end either fails without moving (SdFat) or moves (SerialFlash, LittleFS). Theorems hold for both.
  In `Model/Faulty.lean` (C79) the `read` of a block may also deliver fewer bytes, or return -1 with any contents in the buffer and
  the cursor anywhere; the reads of a WAV header succeed. With no failures this is the same program (`fileTurnsF_nil`).
* `EventResponder` (Teensy core): `clearEvent` clears the triggered flag and unlinks only yield/interrupt events;
  `attach` sets the yield flag; a detached responder drops triggers; `_prev` starts null. Recorded in `Model/Events.lean`.
* `AudioStream::allocate/transmit/release`: allocation may fail at any call; transmit shares the block (reference count).
* `new`, `delete`, `extmem_malloc`, `extmem_free`: a piece of memory has to be released once, by the function that belongs to
  the way it was allocated; anything else is the fault `useAfterFree`.

## Layout of the proofs

`Spec/` - independent specifications used in statements; `Lemmas/` - helper lemmas; `Props/` - one theorem (or a few)
per property, each followed by an `example` showing a concrete instance of the hypotheses. Where the code violates a
property, the negation is proved with a concrete witness (suffix `_refuted`), the part that does hold is proved under
explicit hypotheses, and the property is listed as `partial` (suffix `_partial`).

## Wrong programs

`seeded/LOG.jsonl` lists edits to the model that look like realistic bugs, each with the claim it breaks, the theorems that no
longer build, and what was tightened when none failed.

## Per property

The exact statement, status and theorem names are in `properties.jsonl` and `MANIFEST.json`; here is what each rests on.

| id | modelled by | how proved |
|---|---|---|
| C01-C03 | Wav | evaluation of the parser on `encode fields ++ rest`; exact acceptance predicate; C03 refuted by a bad `WAVE` tag (a `char` passed for `%s`) and characterised exactly |
| C04 | Wav, File | symbolic file = header ++ LIST ++ data, both seek policies |
| C05, C07-C09, C51 | Play | case analysis of `play`; C08, C09, C51 are violated: witness and safe domain |
| C06, C59 | Play, Cache, Player | composition of C05, C17, C25, C45; the result is compared with `Spec/Sound.lean`, which knows only the bytes of the file |
| C10, C11 | Interp | interval arithmetic from monotone and exact rounding |
| C12, C13 | Interp | Mathlib's Lagrange interpolation |
| C14-C16, C22 | Cache | invariant `CacheOk` by induction over lists of operations |
| C17 | Cache, Player | window invariant `FWin` (consecutive blocks in order of the vector), induction over rounds; then `InStep`: the file player and a player with everything in memory stay in the same state |
| C18 | Cache, Player | the mirror image (`RWin`, `InStepBack`); violated when the block preloaded first is less than half in the file, and by a first frame across a block boundary |
| C19, C20 | Cache | characterisation of termination and of out-of-bounds accesses; witnesses of violation |
| C21 | Interrupt | invariant at every interruption point; `C21_steps_faithful` ties the steps to `triggerReload` |
| C23, C24, C36 | Reader | structural induction on `read` |
| C25-C31 | Reader | step invariant relating position and accumulator to the ideal `k * r`; loops by a fold of the ideal position |
| C32 | Reader | fuel bound, or proof that every fuel is exhausted |
| C33, C44 | Reader | invariant (`Going`, `Dual`) bounding every index and intermediate value, kept by every setter on its domain |
| C34, C35 | Reader | interval arithmetic; structural induction |
| C37-C41 | Reader, Play | evaluation; C37, C38, C41 violated: witness and domain |
| C42, C43, C64 | Reader, Interp | invariant on the stored interpolation points along the ideal positions; C64 compares two readers that differ only in their past |
| C45-C50 | Player | evaluation for an arbitrary `read`; C48 by induction over schedules; C49, C50 violated |
| C52 | Conflict | every call as a program of steps, `Safe`: no step leaves a playing reader with a source that is released or being changed; the programs are proved equal to the calls of `Model/Play.lean` when not interrupted |
| C53-C56, C63 | Events | refinement of the pointer structure by a queue (`Spec/Queue.lean`); C55, C63 violated |
| C57, C58, C61, C62 | Time | integer and interval arithmetic; all but parts violated |
| C60 | Cache, Player | the window follows the cyclic order of the loop's blocks (`LWin`), with a first lap from the start position, and the mirror image for backward playback (`RLWin`); violated near the loop end, for short files, and backwards for files ending in the first half of a block and for partial loops started at the end of the sound |
| C65 | Reader | the loop termination argument of C32 for a reader whose loop points change between updates |
| C66 | Heap | `Heap.Has`: the allocated pieces are a permutation of those reachable from the players; each call keeps this and does to the reader what it does without memory; destructors violate it |
| C67 | Play, Cache | the window of C17 at the first frame; the end is refuted |
| C68 | Reader, Cache, Player | a reader on a source that records what it is asked for (`recSrc`) is simulated by the file and by the array (`Lemmas/Sim.lean`); what is recorded stays in the window of C17; cubic interpolation above rate one looks at the header and before the file: refuted |
| C69 | Wav, Play | an independent description of RIFF files as lists of padded chunks (`Spec/Riff.lean`); which of them `playWav` starts, as an equivalence (`C69_accepts_iff`), and that all others are refused without a fault (`C69_refused`); the sound through C59, backwards and repeated through C84 (`C69_back_partial`, `C69_loop_partial`, `C69_loop_back_partial`, `C69_swing_partial`), interpolated through C86 (`C69_cubic_partial`, `C69_linear_partial`); odd LIST chunks, other chunks before the data, several chunks and extended format chunks are refused: refuted |
| C70 | Play, Reader, Cache, Player | two runs side by side: both caches hold blocks that agree on the data chunk's samples (`Lemmas/Alike.lean`), the reader runs on the pair of sources (`pairSrc`), and inside the data chunk both answer alike; a backward start at the end of the file sounds the bytes behind the data chunk: refuted |
| C71 | Cache, Player | the window slides up to the end of the loop, waits until its last block has been read, is reversed, and slides down (`PWin`, `UpSt`, `DownSt`), while the reader may already be on its way back; loops held in the buffers only ever have the order of the buffers reversed (`ShortPing`); violated for loops that end with a block, starts near the end of the loop, files shorter than the buffers, and starts at the beginning of the sound with a loop that begins later |
| C72 | Reader, Cache, Player | updates and changes of speed in any order (`Deed`, `FileReader.acts`, Lemmas/Acts.lean); the invariants of C17, C18, C60, C68 and C71 survive a change of speed that does not move the position (C39) and keeps the direction, so these properties are its special case without changes; violated by turning round, by a change when the first frame has been reached backwards, and by linear interpolation raised above rate one between two frames |
| C73 | Reader | what should be heard is a closed formula in the frame number (`headsAt`, `Sounds`, Spec/Fade.lean), with no state; the two heads are shown to be where it says before every frame (`Phase`, Lemmas/FadeLaw.lean), the weight is followed through its rounding (Lemmas/FadeRead.lean); violated to and fro and downwards by a loop that ends where the material ends: the frame after the last is read with weight zero |
| C74 | Reader, Cache, Update | what is asked for is written down (`recSrc`) and must be in the window of the cache; where both heads can be is an invariant of the frames (`Spots`, Lemmas/FadeSteps.lean), how far they can get in two updates in blocks counted round the loop (`Within`, Lemmas/FadeStream.lean); violated by fades longer than the buffers and by the first head running over the end of the loop |
| C75 | Reader, Interp, Cache, Update | what is asked for is written down (`recSrc`): the frames passed and, for linear interpolation above rate one, the frame before the current one (`lowFrame`); how far one update gets round the loop is counted in frames and blocks (`LoopIn`, Lemmas/SmoothLoop.lean); violated when the second frame played is the first of the loop and begins a block |
| C76 | Reader, Interp, Cache, Update | after leaving, the buffers hold consecutive blocks with a stretch of stale ones among them (`hole`, `HWin`, Lemmas/ListWindow.lean), which the reloads flush; shown from the rotated window of the loop (`LWin.leave`, Lemmas/LeaveLoop.lean); violated right after a jump back to the start of the loop, after which playback falls silent for good, and in the last block of the loop; not shown for loops of more than one block that fit into the buffers |
| C77 | Reader, Cache, Update | an exact law (`starvedBlock`): the first block in memory at each update obeys a recurrence (`bufferedFrom`) in the first samples of the updates, and what is not in memory is silence (Lemmas/Starve.lean); from the law, all but the first update is silence when one update uses up the buffers (stereo from serial flash), and mono WAV files lose as many samples of each update as the data are away from a block boundary; no loss at slow rates (SD up to rate 24 in stereo) or when updates and blocks are aligned; rates on a grid only |
| C78 | Reader, Cache, Update, Player, Events | an exact law for any interleaving of updates, runs of the event handler and speed changes (`streamedTurns`, Spec/Late.lean): positions and events are those of a file in memory, the buffers hold `N` blocks from a block `window` on which a reload moves to the block of the first sample played since the last reload, by at most `N`; what lies beyond is silence (Lemmas/Late.lean, `Late.turns`). From the law: in time, that is at most `n` updates moving by at most `mm` blocks between events with `2 mm + 1` buffers, everything is as in memory (`C78_*_partial`); after any stall, once a number of reloads that depends on its length has been run, everything is as in memory again (`C78_*_recovers`). The last clause of the property is false: the reload that ends a stall as long as the buffers does not help, the next update is all silence whatever the file (`C78_*_refuted`). Not covered: loops, backwards, interpolation. |
| C79 | Faulty, Reader, Cache, Update, Player | every read outcome is an input (`ReadResult`). If each read delivers its block or nothing, every lookup after any operations on the cache gives the file's own sample or 0 (`C79_own_samples`), and any interleaving of updates, events and speed changes transmits, releases and signals as a file in memory does, each sample the same or 0 (`C79_raw_partial`, `C79_wav_partial`, by a simulation that only needs the cache to hold own samples, Lemmas/Faulty.lean `Gappy`). Two parts fail: a short read plays the rest of the block from what was in the buffer before (`C79_short_refuted`), and the sound does not come back: if an update finds none of its samples in memory, all buffers are unused, the reload takes them all further on, away from what is played, and so on until the file ends (`RunsAhead.round`, `LostSound.ticks`). `C79_after_gap_refuted` states it for any playing state, `C79_raw_refuted` and `C79_wav_refuted` for any file whose first block cannot be read when it is started. Missing: loops, backwards, interpolation; block boundaries inside the update after the gap. |
| C80 | Several (Events, Player, Reader, Cache) | a desk of players and the linked list of events. `C80_alone`: the trace of one player is `fileTurns` (C78) of what it saw itself (Lemmas/Several.lean `alone`, by the representation of the list, `Rep`, of C54). `C80_in_memory`: a desk of file players and one with the files in memory produce the same log; an event waits for at most as many calls as there are players (`Tied`: place in the line plus calls missed stays below `k`), so that `Often` makes every player `Prompt`, and C78 applies. `C80_one_call`: one call per round. Calls and updates do not interrupt each other in this model (that is C21 and C54), and no player is stopped or restarted (that is C55, C63). |
| C81 | Settings (Player, Reader, Cache, Faulty) | a list of calls: updates, runs of the pending event, every setter of the player. `C81_right_or_silent`: one head, no interpolation; the streaming player follows the one in memory (Lemmas/Anything.lean `Follows`: equal reader state, equal pending event, every buffer holds what the file has; `read_rel` relates `read` on two sources of which one may answer 0 anywhere). Reads may fail altogether; reads that come short are the subject of C79. The other alternative, `EventFails`, is an event that hangs or goes out of bounds, with everything before it still right. `C81_same_place`: all settings; equality of everything but the remembered samples (Lemmas/Place.lean `Apart`), by following `read` and `_updateCrossfade` once more with arbitrary sources. |
| C82 | Play, Reader, Cache, Interp | `C82_enable_partial`: from `LikeInMemoryAt` of the plain player to that of the interpolating one, for any set of allowed speeds. The plain player is run beside the interpolating one (Lemmas/Beside.lean `Beside`: same state but for interpolation kind and remembered points); at up to normal speed every frame the interpolator asks for is one the plain reader has just asked for or holds already, so each `get` succeeds in both (`Smoothed.read`, `read_sure`). `C82_open_partial` the same when interpolation is on before `playRaw`/`playWav`; eight instances: backwards, repeated, repeated backwards, and (linear only) to and fro; raw and WAV. With linear interpolation the direction may also change between two frames. `C82_refuted`: cubic interpolation in a loop to and fro reads a sample the plain player does not. Missing: more than normal speed, the second head. |
| C83 | Faulty, Player, Settings, Play, Wav, Reader, Cache | Spec/Life.lean `life`: a player from construction through any list of `playRaw`, `playWav` (polled or not), `update`, event runs and settings, with the results of all reads given. `C83_partial`: it is never an error and all blocks are whole, for programs within stated limits (`Use.Within`: 0 ≤ speed ≤ limit, start ≤ limit, channels ≤ limit, at most 8 with interpolation, `SafeWav` files). Invariant `InOrder`: not playing, or `Going` (Lemmas/Safe.lean) with a cache without loops and at most N buffers; kept by updates (`Going.read` over `fileSrcOk_quiet`), events (`triggerReloadF_ends`), settings (`Cmd.Allowed.going`), and by opening any file (`Willing.raw`, `Willing.wav`: parsing never fails and gives sensible channel counts and lengths). `C83_refuted`: 40000 channels, 0 channels, 9 with interpolation, RIFF that is not WAVE. `C83_loops_partial` (Spec/Rounds.lean, Lemmas/Rounds.lean): the same with repeating turned on and off and loop ends moved at any time, forwards; the loop end is set first, all loops contain a common frame, files are long enough for the loops and for all buffers (`Use.Round`), and short reads deliver half a block. Invariant `InRound`: the vector is full (`preLoadLoopF_full`), so reloading never looks past it and always ends (`triggerReloadF_full`). `C83_loops_refuted`: repeating turned on before the loop end is set never returns; repeating a file shorter than the buffers accesses memory out of bounds. Missing: loops to and fro, backwards, two heads; files outside `SafeWav`. `C83_to_and_fro_partial` (Spec/ToFro.lean): the same with loops to and fro and repeated in turn, the rate being of either sign; reloading a full vector ends with a full vector in either direction (`triggerReloadF_fro`: a reversal brings the buffer read last to the front, which ends the loop). `C83_to_and_fro_refuted`: a file played again while a loop to and fro goes backwards starts from its end with one buffer, and a later reload reads past the vector. |
| C84 | Play, Wav, Reader, Cache, Player | Spec/Path.lean: `pathPlay`, the effects of a sequence of updates of a player that moves along a path (`backPath`, `loopPath`, `loopBackPath`, `bouncePath`: which frame at which instant). `Sends`: the player does what the path says, with any allocations, and never misses. `C84_back_partial`, `C84_loop_partial`, `C84_loop_back_partial`, `C84_pingpong_partial`: opening (`playWav_setup`) and streaming (C18, C60, C71) reduce it to the samples in memory; there one frame moves one step on the path (`Turns`, Lemmas/Path.lean), which gives whole updates (`Turns.pathRead`) and sequences (`OnPath.ticks`). `loopPath_one`: at normal speed the loop path is the position modulo the length. `C84_refuted`: at other speeds what is stepped beyond the end of the loop is thrown away, so three frames at double speed give 0, 2, 0, 2, … and not 0, 2, 1, 0, …. `C84_swing_partial` (Props/Swing.lean, Spec/Swing.lean): to and fro at every speed on a grid, started in either direction: the position moves by the speed and turns at both ends; at a turn the fraction is kept as it is (not mirrored), so right after it the position may lie a fraction beyond the turning frame, which `Swing.frame` says. Missing: interpolation; cross-fades. |
| C85 | Play, Wav, Reader, Cache, Player | `C85_cut_partial`: as C59, without the data chunk lying in the file. What is heard is told per instant (`instants`, Spec/Cut.lean, with `pathPlay` of Spec/Path.lean): the events, allocations and the end are those of the claimed length, a sample in the file is heard at its instant, and a sample in a block that begins behind the file's end is silent, on files where one can seek past the end as well as on SD, where such a seek fails and leaves the file where it is. Lemmas/Cut.lean: reads of which some miss leave the buffers from the first block read on (`FWin.cut`, generalising C17's window), the position only grows, so once it is outside the file it stays there, where reloads still succeed (`reload_ends`); `Tail` (Lemmas/CutTail.lean): a block behind the end is loaded empty, since the blocks are loaded in order (`InQueue`, also when the block numbers wrap around, which they do as every buffer is reloaded at each update once nothing is found) and so the file is at its end by then. `C85_stale_refuted`: between the end of the file and the end of its last block the rest of the buffer is heard (uninitialised memory or an earlier block). `C85_unknown_refuted`: a claimed length of 2^32 - 1 bytes plays nothing, the end wraps around to a negative position. `C85_start_refuted`: started behind the end on SD, the player plays the beginning of the samples there. Missing: nothing of the silence the code does provide; it is false in the rest of the last block. |
| C86 | Play, Wav, Reader, Interp, Cache, Player | Spec/Smooth.lean: `channelOf`, `straight`, `smooth` (the curves through the samples), `CubicSound`, `LinearSound` (what is heard at instant t). `C86_cubic_partial`, `C86_linear_partial`: opening (`smooth_opened`) and streaming (C68) reduce it to the samples in memory, where the interpolated law (C42/C43, `smooth_read`) tells each update; sequences as for C84 (`OnPath.ticks`). The linear value is exact in the data when speed and position lie on the grid of the arithmetic (third part of `C86_linear_partial`). `C86_delay`: at normal speed linear interpolation is a delay by one frame. `C69_cubic_partial`, `C69_linear_partial`: the same in terms of the audio of a well-formed file. `C86_refuted`: the first instant is the value held from the sound before and the last frame is never heard. `Props/SmoothPath.lean` has repeated loops in both directions and whole files backwards (`C86_loop_partial`, `C86_loop_back_partial`, `C86_back_partial`): Spec/Unroll.lean says in which order the frames of a loop are met, and what is heard is the interpolation of the material laid out in that order (`Turns.virtual_read`: any sequence of single steps whose fractional part moves like that of an ever increasing position). Missing: speeds above normal, to and fro, cross-fades. |
| C87 | Play, Wav, Reader, Time, Faulty, Player | Spec/Follow.lean: `heardTo` (where a list of updates, polls and speed changes leaves the sound), `timeOf`. `C87_wav_partial`: C79 reduces the streaming player to one in memory with the same position; `Forth.turns` (Lemmas/Follow.lean) follows that one through the list with the forward law (C25), `shown_near` bounds what is shown for a position: the constant and the integer division lose up to 1.17 ms of the length, two roundings less than 0.002 ms, truncation up to 1 ms. Result: the header's samples and `nch` samples per frame, less 2.2 ms to more 0.02 ms. `C87_mono_partial`: so within 1.8 ms of the true time for mono. `C87_refuted`: stereo shows double the time (116 ms heard, more than 230 ms shown). Missing: more than one channel (false); loops, backwards, interpolation; the array player shows a constant (C62). |
| C88 | Seeks, Faulty, Cache, Play, Player | `Model/Seeks.lean` gives the list of the file positions sought by `loadBuffer`; that there is one for each read is part of the theorems (the reads left over are `rs.drop` of their number). Spec/Seeks.lean: `inOrder`. `C88_raw_partial`, `C88_wav_partial`: for any read outcomes the list is `inOrder` from the start block, since the highest block number in the buffers is always that of the last read (`TopIs`, `reloadLoopF_seeks`). `C88_raw_ahead_partial`, `C88_wav_ahead_partial`: if reads succeed, the window law of C78 bounds that number by the position's block and N. `C88_refuted`: after a failed read the buffers run away, and every update reads blocks nobody waits for. Missing: loops, backwards and interpolation; the amount when reads fail (false). |
| C89 | Play, Wav, Reader, Interp, Cache, Player | `WavFile` collects what is asked of a file, `SoundAlike` says that two players send the same blocks for the same allocations. `C89_partial`: both sides are told by `pathPlay` (C84) of their own data; the two tellings agree if the frames do (`pathPlay_ext`, `mirror_*`). `C89_smooth_partial`: both sides are `Exactly` the same interpolation of the frames in the order met (`virtual_sends` in Props/SmoothPath.lean), up to normal speed. `C89_any_partial` (Props/TuneAlike.lean): at any speed, with every position rounded; the rounded positions are mirrored too (`driftBack_mirror`) if the rounding is `Symmetric`, as nearest even is (`ieee_symmetric`). `C89_refuted`: backwards starts at the end of the file, not at the end of the sound, so bytes after the data chunk are heard first. `C89_streams_partial` (Props/Turn.lean, Lemmas/Turned.lean): the two readers step by step at mirrored places, so whenever both are read as from memory they do the same, with interpolation and rounded positions, while both speeds are changed by the same amounts; `C89_speeds_partial`, `C89_smooth_speeds_partial` put this together with C72 and C82. Missing: interpolation above normal speed; the last needs the same values held from the sounds before. |
| C90 | Play, Wav, Reader, Interp, Cache, Player | Spec/Unroll.lean: `unroll`, `unrollBack` say which frame a loop is at after so many steps. `C90_partial`, `C90_back_partial`: the telling of the loop (C84) and that of the written-out file agree up to its end (`told_written`). `C90_smooth_partial`, `C90_smooth_back_partial`: the same with linear or cubic interpolation (`smooth_alike`). `C90_any_partial`, `C90_any_back_partial` (Props/TuneAlike.lean): at any speed below normal, with the same roundings on both sides (`driftLoop_unroll`, `drift_shift`). `C90_refuted`: above normal speed what was stepped over the end of the loop is dropped, so the loop and the written-out file differ. Backwards the loop leaves out its last frames, as C84 says, and `unrollBack` is told so. `C90_pingpong_partial` (Props/MirrorPing.lean): to and fro at normal speed the telling by `bouncePath` and the written-out file agree. `C90_pingpong_refuted`: at three quarters of the speed they do not, for where the loop turns the fraction counts the other way. `C90_streams_partial`, `C90_streams_back_partial` (Props/WrittenOut.lean): two readers that are read as from memory keep step (Lemmas/Written.lean), with any interpolation, any roundings and while the speed is changed, until the written-out file ends; `C90_smooth_speeds_partial`, `C90_smooth_speeds_back_partial`: so it is for WAV files. Missing: speeds above normal and other speeds to and fro (both false); the second head. |
| C91 | Play, Wav, Reader, Cache, Player | Props/RawPath.lean: the lemmas of C59, C84 are told for any offset of the frames in the file, and so hold for raw files (`C59_raw`, `C84_*_raw_partial`). `SameFrames` says that a raw file and a data chunk have the same frames; then both players are told by the same path of the same frames (`SameFrames.alike`). `C91_any_*_partial` (Props/TuneAlike.lean): the same at any speed, by the rounded paths of C92. `C91_streams_partial` (Props/RawShift.lean, Lemmas/Shift.lean): whenever both files are read as from memory (C72, C82) the two players go side by side, one `H` samples further on in a list that is the other's behind the header (`Further`), step by step with every interpolation; so `C91_speeds_*_partial` hold at any speed in all directions while the speed is changed, and `C91_smooth_*_partial` with interpolation. `C91_refuted`: backwards from the end bytes after the data chunk are heard. `C91_again_refuted`: a raw file after a WAV file is played from the offset of that file's header on. `C91_linear_refuted`: with linear interpolation above normal speed the sample between depends on the size of the header, which line 413 of src/ResamplingReader.h counts twice. Missing: two heads, interpolation above normal speed backwards and in loops. |
| C92 | Play, Wav, Reader, Cache, Player | Spec/Tune.lean says what it is to be in tune to an accuracy. Lemmas/Tune.lean: `rnd_near` bounds the error of one rounding from monotony and exactness on doubles alone; `driftAt` is where the player is, rounding each sum; a reader follows it (`amble_turns`, `stroll_turns`) whatever the rate, and it is in tune. Props/Tune.lean puts this together with C17, C18. `C92_refuted`: the frame at exactly `t * rate` is not always the one heard. Lemmas/TuneLoop.lean, Props/TuneLoop.lean: the same for repeated loops below normal speed, forwards and backwards, on C60; `C92_loop_refuted`: at double speed what goes beyond the end of the loop is lost. Missing: loops to and fro, interpolation. |
| C93 | Play, Wav, Reader, Interp, Cache, Player | `onOutput` is what one update sends to one output. Lemmas/Alone.lean: two players whose sounds are in memory, one with `n` channels and one with one, go side by side (`Alone`): same frame, same fraction, the values held for channel `c` of the one are the values held by the other. A read of the one calls the reader once for each channel, and only the last call moves the frame, so what is sent to output `c` does not depend on the other calls (`OnlyAt`, `update_alone`). With C72 and C82 this holds for files (Props/Alone.lean): `C93_wav_partial` (any interpolation), `C93_loop_partial`, `C93_smooth_loop_partial`, `C93_back_partial`, `C93_smooth_back_partial`. `C93_refuted`: backwards in a loop as many frames are left out at the end of the loop as there are other channels. Missing: the second head (start markers), loops back and forth, interpolation above normal speed. |
| C94 | Play, Wav, Reader, Interp, Cache | `PieceOf` (the raw file has `L` frames of the WAV file from frame `n` on; without a loop all the rest) and `Earlier` (the settings with the marks `n` frames earlier) say what is compared. Lemmas/Trim.lean: two players whose sounds are in memory, the one's position `H` samples behind the other's and so its marks, go side by side (`Trim`): every mark the code computes with 32-bit arithmetic is `H` further on, so the two stop, wrap around and turn at the same time. Forwards the beginning of the sound is never reached again; with a loop it is never reached if playback did not start at an end of the sound. With C72 and C82 this holds for files (Props/Trimmed.lean): `C94_streams_partial`, `C94_wav_partial` (any interpolation), `C94_loop_partial`, `C94_smooth_loop_partial`, `C94_loop_back_partial`, `C94_smooth_loop_back_partial`, `C94_ping_partial`, `C94_smooth_ping_partial`. `C94_refuted`: backwards without a loop the sound goes on before frame `n`. Missing: the second head (start markers), linear interpolation above normal speed, cubic interpolation to and fro, a fraction left over from playing backwards, changes of speed backwards while the position is at the first remaining frame. |
| C95 | Reader, Interp, Play, Player, Settings, Cache, Wav | `NoLouder` and `AtMost` (Spec/Loud.lean) say what is claimed. Lemmas/Loud.lean follows the reader through `read`: the samples remembered for interpolation stay within `M` and the fraction within one, the linear mix does not exceed its two samples (`mix_ok`, from C34), and with `M = 0` the fade and the cubic polynomial of zeros are zero in every rounding. `C95_silence` (any calls and settings), `C95_no_louder_partial`, `C95_new_partial` (from a new player on), `C95_reads_partial` (the reader itself), `C95_streams_partial` (raw files, wherever C72 or C82 hold), `C95_anything_partial` (with failing reads and late events, from C81) and `C95_wav_partial` (only the data chunk counts, by comparison with the raw file of its frames as in C91). Violated by cubic interpolation, which swings over the samples (`C95_cubic_refuted`), and by a sound left behind with linear interpolation (`C95_silence_refuted`). `C95_heads_partial` and `C95_heads_raw_partial` (Props/LoudHeads.lean): two heads fading, with no or linear interpolation, at changing forward speed or to and fro at one speed, because the weight stays a weight (`FadeOk`, from C34). Missing: reversing in a fade (wrong, `C34_refuted_flip`), changing the loop in a fade, WAV files backwards, in loops and with two heads |
| C96 | Reader, Interp, Play, Player, Settings, Cache | `Mirrored`, `Cancel` and `Inverse` (Spec/Polarity.lean) say what is claimed. Lemmas/Polarity.lean relates a run to the run with all samples negated (`Rd.flip`): truncation, the fade, the linear mix and the cubic polynomial are odd functions of the samples when rounding is (`RoundsEvenly`, proved for the IEEE model as `ieee_even`), and nothing else depends on the samples. `C96_inverse_partial` (any calls and settings but cubic interpolation), `C96_cubic_partial` (all of them; up to clipping), `C96_raw_partial` and `C96_heads_raw_partial` (raw files through the cache, both runs well-defined), `C96_streams_partial` (raw files wherever both are played as from memory: loops, backwards, to and fro), `C96_wav_partial` and `C96_wav_cubic_partial` (WAV files with opposite data chunks and any headers, by way of C91), `C96_wav_loop_partial` and `C96_wav_smooth_loop_partial` (loops of WAV files without interpolation and with linear interpolation up to normal speed), `C96_wav_loop_back_partial` (such loops backwards without interpolation, the speed unchanged). `C96_cubic_refuted`: clipping is to 32767 above and -32768 below. `C96_defined_partial` (one head) and `C96_heads_defined_partial` (two heads): from memory, without the lowest sample -32768, which has no opposite in 16 bits, the second run is well-defined whenever the first is (Lemmas/PolarityDef.lean, with C95 for the fact that no mix reaches -32768). Missing: the same with cubic interpolation and with a loop or fade changed while two heads play, and WAV files in loops with cubic interpolation, with linear interpolation above normal speed, backwards with interpolation, with changes of speed or from the end of the file. |
