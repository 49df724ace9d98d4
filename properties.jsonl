{"id": "C01", "title": "WAV header fields survive parsing", "statement": "Parsing a buffer that starts with a canonical 36-byte PCM WAV header reports success and exactly the channel count, sample rate, byte rate, alignment, bit depth, format and sizes that were written, whatever bytes follow the header.", "quantifier": "every combination of header field values, every continuation of the buffer", "why_tests_cant": "65536 channel/depth values times 2^32 rates and arbitrary trailing bytes; tests use one or two recordings", "anchors": ["src/waveheaderparser.h#readWaveHeaderFromBuffer"]}
{"id": "C02", "title": "Which buffers are accepted as a WAV header", "statement": "A buffer of at least 36 bytes is accepted as a WAV header exactly when bytes 0-3 are RIFF, 8-11 WAVE, 12-15 'fmt ' and the format chunk size is 16; nothing after byte 35 influences the result or any parsed field.", "quantifier": "every byte buffer of at least 36 bytes", "why_tests_cant": "256^36 possible headers", "anchors": ["src/waveheaderparser.h#readWaveHeaderFromBuffer"]}
{"id": "C03", "title": "Malformed headers are rejected cleanly", "statement": "Giving the parser a header that is not acceptable returns false and does nothing undefined.", "quantifier": "every byte buffer of at least 36 bytes", "why_tests_cant": "the failing cases need a malformed tag plus a particular memory layout behind the log message; a test passes or crashes depending on luck", "anchors": ["src/waveheaderparser.h#readWaveHeaderFromBuffer"]}
{"id": "C04", "title": "The chunk walk finds the audio data", "statement": "For a WAV file whose format chunk is followed by an optional LIST chunk of any length that lies inside the file and then the data chunk, the parser reports the data length written in the data chunk; for any other chunk in those positions the parser does not report success.", "quantifier": "every LIST length and content, every data length, every file content, both seek behaviours of the file systems", "why_tests_cant": "LIST chunks have arbitrary length and content", "anchors": ["src/waveheaderparser.h#readWaveHeader", "src/waveheaderparser.h#readInfoTags", "src/waveheaderparser.h#readDataHeader"]}
{"id": "C05", "title": "Which WAV files start playing", "statement": "playWav on an existing file with a non-zero channel count returns true exactly when the header is acceptable with 16-bit depth, the next chunks are [LIST] data, and the file is longer than its header; in every other case that returns, it returns false and isPlaying() is false.", "quantifier": "every file content shorter than 2 GiB whose LIST chunk (if any) lies inside the file, every earlier reader state, every content of the uninitialised stack buffer", "why_tests_cant": "includes truncated files, where the outcome depends on uninitialised stack bytes that a test cannot control", "anchors": ["src/ResamplingReader.h#play", "src/waveheaderparser.h"]}
{"id": "C06", "title": "WAV parameters reach playback", "statement": "After a successful playWav of a well-formed file with an even-length (or absent) LIST chunk, the first sample delivered at forward unit rate is the first sample of the data chunk, the channel count is the header's, and the number of frames available is data bytes / (2 * channels).", "quantifier": "every well-formed WAV file shorter than 2 GiB with 1..32767 channels and at least one frame, every interior even LIST length, every buffer geometry (blocks below 16384 samples), every reader set to play forwards from sample 0 without looping or interpolation", "why_tests_cant": "needs all header layouts times all earlier reader states", "anchors": ["src/ResamplingReader.h#play", "src/ResamplingReader.h#setNumChannels"]}
{"id": "C07", "title": "File and in-memory WAV playback agree", "statement": "The same WAV image played from a file and from memory yields the same channel count and the same number of frames.", "quantifier": "every well-formed 16-bit WAV image shorter than 2 GiB with 1..32767 channels", "why_tests_cant": "all images, including ones whose data length is not a multiple of the frame size", "anchors": ["src/ResamplingReader.h#playWav", "src/ResamplingReader.h#play"]}
{"id": "C08", "title": "In-memory WAV parsing stays inside the image", "statement": "playWav(array) never reads outside the image it is given.", "quantifier": "every image and every declared chunk length", "why_tests_cant": "the failing case needs an untrusted length field and a memory checker", "anchors": ["src/ResamplingReader.h#playWav", "src/waveheaderparser.h#readInfoTags", "src/waveheaderparser.h#readDataHeader"]}
{"id": "C09", "title": "Zero-channel input", "statement": "Starting playback with a channel count of zero either is refused or is safe.", "quantifier": "every file and array, raw and WAV", "why_tests_cant": "the count comes from file content or a defaulted argument", "anchors": ["src/ResamplingReader.h#play", "src/ResamplingReader.h#playWav", "src/ResamplingReader.h#playRaw"]}
{"id": "C10", "title": "Cubic interpolation never leaves the 16-bit range", "statement": "fastinterpolate is defined and returns a value in [-32768, 32767] for every four samples and every position used by the reader (1 <= x <= 2).", "quantifier": "every int16 quadruple, every float x in [1,2], every IEEE rounding", "why_tests_cant": "2^64 sample quadruples times 2^23 positions", "anchors": ["src/interpolation.cpp#fastinterpolate"]}
{"id": "C11", "title": "Cubic interpolation is the Lagrange cubic", "statement": "Up to an explicit bound on floating-point error, fastinterpolate returns the value at x of the cubic through (0,d1),(1,d2),(2,d3),(3,d4), truncated and clamped; in exact arithmetic it reproduces d2 at x=1 and d3 at x=2.", "quantifier": "every int16 quadruple, every float x in [1,2], every IEEE rounding", "why_tests_cant": "2^64 quadruples times 2^23 positions; the constants 6000000000 etc. are easy to get wrong in the last digit", "anchors": ["src/interpolation.cpp#fastinterpolate"]}
{"id": "C12", "title": "General interpolation passes through its nodes", "statement": "interpolate(f, x, n) evaluated at a node abscissa returns that node's ordinate saturated to 16 bits, for distinct abscissae.", "quantifier": "every number of points, every set of distinct abscissae, every node", "why_tests_cant": "unbounded n and real-valued data", "anchors": ["src/interpolation.cpp#interpolate"]}
{"id": "C13", "title": "General interpolation is exact on polynomials and saturates", "statement": "In exact arithmetic, interpolate of n distinct samples of any polynomial of degree < n returns the polynomial's value rounded and saturated to [-32768, 32767].", "quantifier": "every n, polynomial, set of distinct abscissae and x within the int32 range", "why_tests_cant": "infinite families of polynomials", "anchors": ["src/interpolation.cpp#interpolate"]}
{"id": "C14", "title": "A cached sample is always the file's sample", "statement": "Whatever sequence of preloads, reloads and reads has happened, reading sample i of a streamed file returns sample i of the file or, if it is not buffered, 0 - never another sample - as long as i lies in the file.", "quantifier": "every file (below 4 GiB), every buffer geometry, every sequence of operations (any reload order, direction, loop type)", "why_tests_cant": "the cache state is a long history-dependent permutation of blocks", "anchors": ["src/IndexableFile.h#operator[]", "src/IndexableFile.h#loadBuffer", "src/IndexableFile.h#triggerReload", "src/IndexableFile.h#preLoadBuffers"]}
{"id": "C15", "title": "A read never touches the file system", "statement": "Reading a sample changes neither the file position nor the buffered data; it only marks buffers and counts a miss, and the miss counter (getBufferSize) increases by exactly the number of samples that were not buffered.", "quantifier": "every cache state, every sequence of reads", "why_tests_cant": "file access under interrupt shows up only as rare corruption", "anchors": ["src/IndexableFile.h#operator[]", "src/IndexableFile.h#find_with_index", "src/IndexableFile.h#getBufferSize"]}
{"id": "C16", "title": "The buffer pool is bounded and never shrinks during playback", "statement": "After any sequence of preloads, reads and reloads the number of buffers is at most the configured maximum, reloading only permutes buffers, and only preloading allocates.", "quantifier": "every operation sequence and file", "why_tests_cant": "leaks need long histories", "anchors": ["src/IndexableFile.h#triggerReload", "src/IndexableFile.h#preLoadBuffers"]}
{"id": "C17", "title": "Forward streaming has no dropouts", "statement": "Playing a file forwards without looping, with one reload after every audio update, every sample read is served from the buffers as long as each update advances at most m blocks and there are at least 2m+1 buffers.", "quantifier": "every file (below 2 GiB), start position, block size (below 16384 samples), buffer count and sequence of per-update advances within the bound; for the whole player also every rate, channel count and pattern of failing block allocations", "why_tests_cant": "every alignment of update boundaries against block boundaries over the whole file", "anchors": ["src/IndexableFile.h#triggerReload", "src/IndexableFile.h#operator[]", "src/ResamplingReader.h#read"]}
{"id": "C18", "title": "Reverse streaming has no dropouts", "statement": "The same for playing backwards without looping from the position play() starts at, until the beginning of the file.", "quantifier": "every file length, block size, buffer count and sequence of per-update advances within the bound", "why_tests_cant": "as C17, plus the behaviour below block 0", "anchors": ["src/IndexableFile.h#triggerReload", "src/IndexableFile.h#preLoadBuffers"]}
{"id": "C19", "title": "Servicing a reload always terminates", "statement": "The reload request handler returns for every state the player can put the cache into.", "quantifier": "every cache state, rate, loop type", "why_tests_cant": "a hang needs a particular combination of marks and direction", "anchors": ["src/IndexableFile.h#triggerReload"]}
{"id": "C20", "title": "Servicing a reload is memory safe", "statement": "The reload request handler accesses only existing buffers.", "quantifier": "every cache state, rate and loop type", "why_tests_cant": "out-of-range vector access is silent on the target", "anchors": ["src/IndexableFile.h#triggerReload"]}
{"id": "C21", "title": "Interrupting a reload cannot corrupt unrelated audio", "statement": "If the audio interrupt reads samples at any point between the steps of a reload, every sample outside the blocks being evicted and loaded is read as from before or after the reload.", "quantifier": "every cache state and every interruption point", "why_tests_cant": "needs every interleaving point", "anchors": ["src/IndexableFile.h#triggerReload", "src/IndexableFile.h#loadBuffer"]}
{"id": "C22", "title": "A partial last block serves the file's tail", "statement": "After loading the block that contains the end of the file, every sample that lies in the file is served correctly, and the buffer's recorded byte count equals the bytes available.", "quantifier": "every file length and block size below 16384 samples", "why_tests_cant": "every residue of the file length", "anchors": ["src/IndexableFile.h#loadBuffer"]}
{"id": "C23", "title": "read() never over-delivers and keeps channels aligned", "statement": "read(buf, n) returns a count <= n and has written exactly that many samples to every channel.", "quantifier": "every reader state with 1..8 channels, every n, every source", "why_tests_cant": "all states", "anchors": ["src/ResamplingReader.h#read"]}
{"id": "C24", "title": "Splitting a read does not change the audio", "statement": "Reading n then m frames gives the same frames and final state as reading n+m frames at once, as long as the first read was not short.", "quantifier": "every state, every n and m, every source", "why_tests_cant": "pairs of all states and all splits", "anchors": ["src/ResamplingReader.h#read"]}
{"id": "C25", "title": "Forward resampling law", "statement": "Without interpolation and looping, the k-th frame delivered after starting an array on a reader without a left-over fraction at rate r >= 0 is source frame floor(k*r) for every channel, as long as that is inside the source.", "quantifier": "every rate on the binary grid that double arithmetic represents exactly (including every float rate of practical size), every k, every array and channel count up to 32767 whose positions fit 32 bits, every way of splitting the reads", "why_tests_cant": "unbounded k: drift appears only after hours", "anchors": ["src/ResamplingReader.h#read", "src/ResamplingReader.h#readNextValue"]}
{"id": "C26", "title": "Exact length of non-looping playback", "statement": "Non-looping forward playback of an array of F frames from its first sample at rate r > 0, on a reader without a left-over fraction, delivers exactly ceil(F/r) frames in total, then read() returns short counts forever until restarted.", "quantifier": "every F, every grid rate r > 0, every sequence of read sizes", "why_tests_cant": "every length/rate pair", "anchors": ["src/ResamplingReader.h#read"]}
{"id": "C27", "title": "Reverse resampling law", "statement": "Without interpolation and looping, the k-th frame of an array delivered at rate -r from a start frame s by a reader without a left-over fraction is source frame s - floor(k*r), down to frame 0, and the total delivered is ceil((s+1)/r).", "quantifier": "every start frame (chosen by setPlayStart, or the default start of mono material), grid rate and channel count", "why_tests_cant": "as C25/C26", "anchors": ["src/ResamplingReader.h#read", "src/ResamplingReader.h#reset"]}
{"id": "C28", "title": "Repeat-loop law", "statement": "For an array at rate 1 with looptype_repeat the k-th frame is the source frame loop_start + ((k + s - loop_start) mod (loop_finish - loop_start)) for a start s inside the loop; read() is always full.", "quantifier": "every loop start < finish, start position, k", "why_tests_cant": "unbounded history", "anchors": ["src/ResamplingReader.h#read"]}
{"id": "C29", "title": "Looped playback stays inside the loop", "statement": "With looptype_repeat and any rate in either direction, every frame delivered after entering the loop lies in the loop region, and the sounding position is always a frame boundary.", "quantifier": "every loop, rate, channel count, number of reads", "why_tests_cant": "every rate/loop length combination", "anchors": ["src/ResamplingReader.h#read", "src/ResamplingReader.h#readNextValue"]}
{"id": "C30", "title": "Ping-pong law", "statement": "With looptype_pingpong playback alternates direction at the loop ends, never leaves [start, finish), and read() is always full.", "quantifier": "every loop of enough frames, every rate, every history", "why_tests_cant": "every phase of reflection", "anchors": ["src/ResamplingReader.h#read"]}
{"id": "C31", "title": "No accumulated timing drift", "statement": "After any number of frames the fractional position accumulator equals exactly the ideal one: position plus fraction = start + k*rate with |fraction| < 1, for every rate that is a multiple of 2^-p below 2^(52-p) and every configuration but ping-pong (where the rate changes sign); and for arbitrary double rates the fraction still stays below 1 in magnitude and positions only move in the direction of the rate.", "quantifier": "every rate, every number of steps, every IEEE rounding", "why_tests_cant": "drift of 1 ulp per sample needs 10^15 samples", "anchors": ["src/ResamplingReader.h#read"]}
{"id": "C32", "title": "read() always returns", "statement": "A call to read() terminates for every configuration in which the loop region is non-empty; the configurations for which it does not are exactly characterised.", "quantifier": "every reader state and n", "why_tests_cant": "termination", "anchors": ["src/ResamplingReader.h#read"]}
{"id": "C33", "title": "In-memory playback never reads outside the array", "statement": "Playing an array never reads outside it, for the documented configurations (loop inside the array, positions inside the array, no cubic interpolation at |rate| > 1).", "quantifier": "every array, rate, loop, interpolation setting within the domain, every history of reads", "why_tests_cant": "out-of-bounds reads are silent", "anchors": ["src/ResamplingReader.h#read", "src/ResamplingReader.h#readNextValue", "src/ResamplingArrayReader.h#getSourceBufferValue"]}
{"id": "C34", "title": "Cross-fade weight and mix stay in range", "statement": "While a cross-fade of non-zero duration is active the reported cross-fade is in [0,1] and the mixed sample lies between the two mixed source samples (up to truncation), so it never overflows 16 bits.", "quantifier": "every fade duration, positions, samples, IEEE rounding", "why_tests_cant": "every weight times every sample pair", "anchors": ["src/ResamplingReader.h#_updateCrossfade", "src/ResamplingReader.h#readNextValue"]}
{"id": "C35", "title": "Dual-head playback never runs dry", "statement": "With the dual playback head enabled read() always delivers the full request, regardless of the loop type.", "quantifier": "every state, rate, loop type, n", "why_tests_cant": "all histories", "anchors": ["src/ResamplingReader.h#readNextValue", "src/ResamplingReader.h#read"]}
{"id": "C36", "title": "A stopped reader is silent and inert", "statement": "When isPlaying() is false, read() returns 0, writes nothing and changes nothing.", "quantifier": "every state and n", "why_tests_cant": "all states", "anchors": ["src/ResamplingReader.h#read", "src/ResamplingReader.h#stop"]}
{"id": "C37", "title": "play() restarts at the configured start", "statement": "play(), playRaw and playWav leave the reader playing at the configured start: sample 0, loop start or the user position when the rate is non-negative, and at the last frame of the file, the last frame of the loop or the user position when it is negative.", "quantifier": "every state, start mode, rate sign, channel count", "why_tests_cant": "all combinations of earlier history", "anchors": ["src/ResamplingReader.h#play", "src/ResamplingReader.h#reset"]}
{"id": "C38", "title": "Replaying sounds the same", "statement": "Calling play() again gives the same output as the first time.", "quantifier": "every earlier history, rate and interpolation type", "why_tests_cant": "leftover state after any history", "anchors": ["src/ResamplingReader.h#play", "src/ResamplingReader.h#reset"]}
{"id": "C39", "title": "Changing speed does not make the position jump", "statement": "setPlaybackRate while playing inside the material leaves the position unchanged; the position only moves when playback sits at or before the first sample and reverse is requested (then it goes to the last frame), or before the first sample and forward is requested.", "quantifier": "every state and rate", "why_tests_cant": "all states", "anchors": ["src/ResamplingReader.h#setPlaybackRate"]}
{"id": "C40", "title": "Configuration round-trips and is independent", "statement": "Each setter is visible through its getter, and changes no other observable setting.", "quantifier": "every earlier state, every value in the range of the getter (rates that are floats, loop points below 2^31, up to 32767 channels)", "why_tests_cant": "combinations", "anchors": ["src/ResamplingReader.h#setLoopStart", "src/ResamplingReader.h#setLoopFinish", "src/ResamplingReader.h#setLoopType", "src/ResamplingReader.h#setCrossfadeDurationInSamples", "src/ResamplingReader.h#setUseDualPlaybackHead", "src/ResamplingReader.h#setBufferInPSRAM", "src/ResamplingReader.h#setPlaybackRate"]}
{"id": "C41", "title": "loop(n) loops from the current position", "statement": "Calling loop(n) during playback makes the n frames starting at the current position repeat.", "quantifier": "every position and n", "why_tests_cant": "all positions and header sizes", "anchors": ["src/ResamplingReader.h#loop"]}
{"id": "C42", "title": "Linear interpolation stays between neighbours", "statement": "With linear interpolation at a rate in (0,1], for an array played from its first sample without looping, every sample delivered from the second source frame used on is the straight line through the source samples, one frame behind the playback position, up to truncation (and rounding); so it lies between the two source samples around that position.", "quantifier": "every array of up to eight channels, grid rate in (0,1], left-over fraction, IEEE rounding", "why_tests_cant": "all rates and sample values", "anchors": ["src/ResamplingReader.h#readNextValue"]}
{"id": "C43", "title": "Cubic interpolation at unit rate is a pure delay", "statement": "With cubic interpolation at rate 1, in exact arithmetic, for an array played from its first sample without looping, the output is the source delayed by two frames after three zero frames. At any rate in (0,1] and under any rounding every sample is within 2 of the saturated cubic through the last four source frames at the exact position two frames behind.", "quantifier": "every array of up to eight channels and every length", "why_tests_cant": "all sources", "anchors": ["src/ResamplingReader.h#readNextValue", "src/interpolation.cpp#fastinterpolate"]}
{"id": "C44", "title": "No signed overflow during playback", "statement": "For material that fits the documented limits (positions below 2^31) and any rate below 2^15 in magnitude no integer operation in read() overflows.", "quantifier": "every state, rate, history", "why_tests_cant": "overflow is silent", "anchors": ["src/ResamplingReader.h#read", "src/ResamplingReader.h#_getSourceBufferValue"]}
{"id": "C45", "title": "update() transmits what was read, padded with silence", "statement": "When all blocks can be allocated, update() transmits one block per channel holding the frames read followed by zeros, and for mono the same block to both outputs.", "quantifier": "every reader, allocation outcome and channel count", "why_tests_cant": "all combinations", "anchors": ["src/playresmp.h#update"]}
{"id": "C46", "title": "update() never leaks or double-frees audio blocks", "statement": "Every block allocated in update() is released exactly once, whatever the pattern of allocation failures.", "quantifier": "every allocation outcome and channel count", "why_tests_cant": "allocation failures are rare", "anchors": ["src/playresmp.h#update"]}
{"id": "C47", "title": "Exactly the right event is raised", "statement": "update() raises a reload event when a full block was read and a close event when it was short; it raises nothing when not playing or when blocks were missing.", "quantifier": "every state and outcome", "why_tests_cant": "all states", "anchors": ["src/playresmp.h#update"]}
{"id": "C48", "title": "Playback that ends becomes not playing", "statement": "After non-looping playback has delivered its last frame and pending events are serviced, isPlaying() becomes false and stays false.", "quantifier": "every file, rate, sequence of updates and event servicing", "why_tests_cant": "schedules", "anchors": ["src/playresmp.h#update", "src/playresmp.h#event_response", "src/ResamplingReader.h#close"]}
{"id": "C49", "title": "Array playback end is reported", "statement": "After array playback has delivered its last frame isPlaying() becomes false.", "quantifier": "every array and schedule", "why_tests_cant": "schedules", "anchors": ["src/playresmp.h#playRaw", "src/AudioEventResponder.h#triggerEvent"]}
{"id": "C50", "title": "A failed start leaves the player stopped", "statement": "When playRaw/playWav returns false the player is not playing, and update() then transmits nothing.", "quantifier": "every earlier state and file", "why_tests_cant": "all states", "anchors": ["src/ResamplingReader.h#play", "src/playresmp.h#playWav"]}
{"id": "C51", "title": "In-memory WAV with explicit size", "statement": "playWav(data, size) plays the WAV image.", "quantifier": "every image", "why_tests_cant": "all images", "anchors": ["src/ResamplingReader.h#playWav", "src/playresmp.h#playWav"]}
{"id": "C52", "title": "Player calls and the audio interrupt do not conflict", "statement": "An update() that interrupts stop(), close(), playRaw() or playWav() between any two steps never uses released buffers or a missing source.", "quantifier": "every interruption point, every earlier state", "why_tests_cant": "every interleaving", "anchors": ["src/ResamplingReader.h#play", "src/ResamplingReader.h#close", "src/ResamplingReader.h#playRaw", "src/playresmp.h#update"]}
{"id": "C53", "title": "Response masking nests", "statement": "After any balanced nesting of disableResponse/enableResponse the yield flag is what it was before plus anything attached meanwhile, and inside the nesting the response is masked (unless forced).", "quantifier": "every nesting and interleaved attach/updateResponse", "why_tests_cant": "all nestings", "anchors": ["src/AudioEventResponder.h#disableResponse", "src/AudioEventResponder.h#enableResponse", "src/AudioEventResponder.h#updateResponse"]}
{"id": "C54", "title": "Polled events run first-come first-served, once each", "statement": "With only triggers and polls, every triggered event is run exactly once per trigger-while-idle, in trigger order.", "quantifier": "every sequence of triggers and polls over any number of players", "why_tests_cant": "all sequences", "anchors": ["src/AudioEventResponder.h#triggerEvent", "src/AudioEventResponder.h#runPolled", "src/AudioEventResponder.cpp#addToList", "src/AudioEventResponder.cpp#removeFromList"]}
{"id": "C55", "title": "Stopping one player does not lose another player's events", "statement": "Clearing or detaching one polled player's pending event leaves every other player's pending event serviced.", "quantifier": "every sequence of trigger, poll, stop, detach", "why_tests_cant": "all sequences", "anchors": ["src/AudioEventResponder.h#detach", "src/AudioEventResponder.cpp#removeFromList", "src/playresmp.h#stop"]}
{"id": "C56", "title": "runPolled reports pending work truthfully", "statement": "runPolled returns -1 exactly when nothing was pending, 1 exactly when events remain, 0 otherwise.", "quantifier": "every list state", "why_tests_cant": "all states", "anchors": ["src/AudioEventResponder.h#runPolled"]}
{"id": "C57", "title": "lengthMillis is accurate", "statement": "lengthMillis() equals the byte length converted to milliseconds at the audio rate within 1 ms, for every file size.", "quantifier": "every file size below 2^31", "why_tests_cant": "2^31 sizes", "anchors": ["src/ResamplingReader.h#lengthMillis"]}
{"id": "C58", "title": "positionMillis never exceeds lengthMillis and advances monotonically", "statement": "For a streamed file, while the position is inside the file positionMillis() <= lengthMillis() and a later position never reports an earlier time.", "quantifier": "every file size, position and IEEE rounding", "why_tests_cant": "2^31 positions times 2^31 sizes", "anchors": ["src/ResamplingSdReader.h#positionMillis", "src/ResamplingLfsReader.h#positionMillis", "src/ResamplingSerialFlashReader.h#positionMillis"]}
{"id": "C59", "title": "End-to-end streaming fidelity", "statement": "Playing a 16-bit WAV file whose data lies at an even byte forwards at rate r from SD-style storage, with events serviced after every update, transmits exactly the frames floor(k*r) of the data chunk in order, zero-padded at the end, then stops.", "quantifier": "every WAV file below 2 GiB, every grid rate 0 < r within the streaming bound (per update at most m blocks, at least 2m+1 buffers, blocks below 16384 samples), every number of updates, every pattern of failing block allocations", "why_tests_cant": "whole-system behaviour over every file and rate", "anchors": ["src/playresmp.h#update", "src/playresmp.h#event_response", "src/ResamplingReader.h#play", "src/ResamplingReader.h#read", "src/IndexableFile.h"]}
{"id": "C61", "title": "lengthMillis is the playing time", "statement": "lengthMillis() of a player is the time (at rate 1) the sound takes to play: number of frames divided by the sampling rate, within rounding.", "quantifier": "every raw file, array and channel count", "why_tests_cant": "Tests use one short mono file; the claim is about every channel count and size.", "anchors": ["src/ResamplingReader.h#lengthMillis", "src/ResamplingSdReader.h#lengthMillis", "src/ResamplingReader.h#playRaw"]}
{"id": "C62", "title": "positionMillis follows the playback position of arrays", "statement": "positionMillis() of an array player is the time of the current frame, in particular about 0 at the start.", "quantifier": "every array and position", "why_tests_cant": "A relation between all positions and the reported time.", "anchors": ["src/ResamplingReader.h#positionMillis", "src/ResamplingArrayReader.h"]}
{"id": "C63", "title": "A new sound is not ended by the previous sound's event", "statement": "stop() and play() cancel the player's pending event: an event triggered before they are called has no effect on the sound started afterwards.", "quantifier": "every player state, pending event, file; players attached to yield and polled players", "why_tests_cant": "Needs a poll to fall between the start of a sound and its first update, with an event of the old sound pending; tests run events right after each update.", "anchors": ["src/playresmp.h#stop", "src/playresmp.h#playWav", "src/AudioEventResponder.h#attachPolled", "src/AudioEventResponder.h#detach", "src/AudioEventResponder.h#runPolled"]}
{"id": "C64", "title": "No trace of the previous sound", "statement": "What a reader delivers after play() depends on the settings and the new sound only, not on what it played before.", "quantifier": "every pair of sounds, amount of the first one read, rate and interpolation", "why_tests_cant": "Needs pairs of sounds played on one reader, with every leftover fraction and every interpolation state; tests create a fresh reader for each sound.", "anchors": ["src/ResamplingReader.h#reset", "src/ResamplingReader.h#readNextValue", "src/ResamplingArrayReader.h#playRaw"]}
{"id": "C65", "title": "The loop of a playing sound can be moved", "statement": "While a looping sound plays, setLoopStart() and setLoopFinish() may be called one after the other to move the loop to any other place: an update() that comes between the two calls returns.", "quantifier": "every pair of non-empty loops, every interruption point, every position, rate and loop type", "why_tests_cant": "needs an interrupt between two calls and the play position at the right place", "anchors": ["src/ResamplingReader.h#setLoopStart", "src/ResamplingReader.h#setLoopFinish", "src/ResamplingReader.h#read"]}
{"id": "C60", "title": "Looped streaming has no dropouts", "statement": "With one serviced reload per update, a file played forwards or backwards with a repeated loop is transmitted exactly as if all of it were in memory, including every jump from the end of the loop back to its beginning (from its beginning to its end when played backwards), for as long as it plays; no sample is replaced by silence.", "quantifier": "every file, loop, start position, number of channels, rate of either sign within the streaming speed limit, buffer geometry with enough buffers, and any number of updates", "why_tests_cant": "the order of the buffers depends on where the loop lies relative to block boundaries, on the start position, and on all earlier updates", "anchors": ["src/IndexableFile.h#triggerReload", "src/IndexableFile.h#preLoadBuffers", "src/ResamplingReader.h#read"]}
{"id": "C66", "title": "All memory is released, and released once", "statement": "However file players are constructed, used (playing, stopping, ending, failing to open, changing the memory the buffers are placed in) and destroyed, every piece of memory the library allocates is released exactly once and by the function that matches its allocation; a player occupies a bounded amount of memory no matter how many sounds it has played; when all players are destroyed nothing remains allocated.", "quantifier": "every sequence of constructions, calls, updates, serviced events and destructions of any number of players, all files", "why_tests_cant": "depends on the whole history of calls; a missing or double release has no audible effect until memory runs out or is corrupted", "anchors": ["src/IndexableFile.h#close", "src/IndexableFile.h#~indexedbuffer", "src/ResamplingReader.h#play", "src/ResamplingSdReader.h#close", "src/playsdresmp.h#~AudioPlaySdResmp"]}
{"id": "C67", "title": "A raw file's header is skipped", "statement": "After setHeaderSizeInBytes(h), playRaw(filename, n) plays the part of the file that follows its first h bytes: the first frame is the one at byte h and the sound ends with the last whole frame of the file.", "quantifier": "every file, even header size, number of channels, buffer geometry", "why_tests_cant": "what is heard after the end depends on the previous content of the buffers' memory", "anchors": ["src/ResamplingReader.h#setHeaderSizeInBytes", "src/ResamplingReader.h#play", "src/ResamplingReader.h#reset"]}
{"id": "C68", "title": "Interpolated streaming has no dropouts and uses only the sound's samples", "statement": "With one serviced reload per update, a file played forwards with linear or cubic interpolation is transmitted exactly as if the whole file were in memory and interpolated from there; every sample the interpolation looks at, including the ones behind the current position, is a sample of the sound and is in the buffers when it is needed.", "quantifier": "every file (raw or WAV), start frame, number of channels, interpolation, rate within the streaming speed limit, buffer geometry with enough buffers, rounding, allocation pattern and number of updates", "why_tests_cant": "whether the samples behind the position are still buffered depends on where each update's boundary falls relative to the blocks, for every rate and history", "anchors": ["src/ResamplingReader.h#readNextValue", "src/IndexableFile.h#triggerReload", "src/IndexableFile.h#operator[]"]}
{"id": "C69", "title": "Every well-formed 16-bit WAV file plays", "statement": "playWav starts every well-formed 16-bit RIFF WAVE file, whatever optional chunks come before and after its data chunk and however its format chunk is extended, and the sound transmitted is exactly the contents of the data chunk.", "quantifier": "every well-formed RIFF WAVE file with 16-bit samples below 2 GB (any list of chunks, padded when odd), reader state, stack contents, buffer geometry; for the sound: plain forward playback at every representable rate within the streaming speed limit and every allocation pattern", "why_tests_cant": "the chunk lists that editors write are unbounded in number, order and length; tests cover a few fixture files", "anchors": ["src/waveheaderparser.h#readInfoTags", "src/waveheaderparser.h#readWaveHeaderFromBuffer", "src/ResamplingReader.h#play"]}
{"id": "C70", "title": "Only the data chunk is heard", "statement": "Two WAV files of the same length with the same channels and the same data chunk in the same place, but different bytes elsewhere, cannot be told apart by listening or by any query: from the same player they start with the same result and have the same effects, reader state and faults under every sequence of updates, events, stop and settings.", "quantifier": "every pair of such files, player state with sensible settings, buffer geometry, rounding, allocation pattern and schedule of updates, events, stop and setting changes", "why_tests_cant": "a relation between two executions over all schedules: a leak of a neighbouring byte shows only for particular block boundaries, positions and reload timings", "anchors": ["src/ResamplingReader.h#play", "src/ResamplingReader.h#readNextValue", "src/IndexableFile.h#operator[]", "src/IndexableFile.h#triggerReload"]}
{"id": "C71", "title": "Streaming a ping-pong loop has no dropouts", "statement": "With one serviced reload per update, a file played to and fro in a ping-pong loop, started forwards or backwards, is transmitted exactly as if all of it were in memory, through every turn at either end of the loop, for as long as it plays; no sample is replaced by silence.", "quantifier": "every file, loop, start position, number of channels, rate of either sign within the streaming speed limit (any rate for loops that fit into the buffers), buffer geometry with enough buffers, and any number of updates and turns", "why_tests_cant": "the cache turns later than the reader, at the moment its last buffer has been read and its first one has not; whether it does in time depends on where both ends of the loop lie in their blocks, on the speed and on all earlier updates", "anchors": ["src/IndexableFile.h#triggerReload", "src/IndexableFile.h#preLoadBuffers", "src/ResamplingReader.h#read"]}
{"id": "C72", "title": "Changing the speed while a file streams causes no dropouts", "statement": "A program that calls setPlaybackRate between the updates of a playing file, as often as it likes and with any speed within the streaming limit, hears exactly what it would hear if the file were in memory: every block, every completion event and the moment playback ends are the same, and no sample is replaced by silence.", "quantifier": "every file, number of channels, start position, loop, buffer geometry with enough buffers, and every sequence of updates and changes of speed", "why_tests_cant": "the cache only learns the direction of playback at a reload and bets on where the reader will go next; whether a change of speed invalidates the bet depends on the position, its fraction, the loop and all earlier updates", "anchors": ["src/ResamplingReader.h#setPlaybackRate", "src/IndexableFile.h#triggerReload", "src/playresmp.h#setPlaybackRate"]}
{"id": "C73", "title": "A cross-faded loop sounds as the linear fade prescribes", "statement": "Played at unit speed in either direction with the dual head, a loop cross-faded over D frames delivers, frame by frame and for ever: the frames up to D before the end of the loop, then laps each beginning with a linear fade over D frames from the frames at the end of the loop to those where the next lap begins (to and fro: the same end, read backwards). The fade starts with exactly the old sample, ends with exactly the new one, and is in between their time-weighted mean up to truncation. Reads are always full.", "quantifier": "every array, number of channels, loop inside the material more than twice as long as the fade, fade length, start position, direction, loop type and sizes of reads", "why_tests_cant": "the position and weight of both heads are derived from each other at every frame, with different arithmetic for each direction and loop type; a slip of one frame shows only at the boundary of a lap, possibly only every second lap, and needs every loop, fade length and number of laps", "anchors": ["src/ResamplingReader.h#_updateCrossfade", "src/ResamplingReader.h#readNextValue", "src/ResamplingReader.h#setCrossfadeDurationInSamples", "src/ResamplingReader.h#setUseDualPlaybackHead"]}
{"id": "C74", "title": "Streaming a cross-faded loop has no dropouts", "statement": "With one serviced reload per update, a file played forwards with a repeated loop and the dual head on is transmitted exactly as if all of it were in memory: during every cross-fade both the end of the loop and its beginning are heard, after it only the loop, for as long as it plays and at whatever speed the program sets in between; no sample of either head is replaced by silence.", "quantifier": "every file, loop, fade length, start position, number of channels, sequence of updates and changes of speed within the streaming limit, and buffer geometry with enough buffers", "why_tests_cant": "while a loop is faded the player reads from two places at once that may be as far apart as the loop is long, and the cache keeps one list of blocks ordered by what will be needed next; whether both are there depends on the loop, the fade, the block size, the speed and the alignment of the update at which the fade begins", "anchors": ["src/ResamplingReader.h#_updateCrossfade", "src/ResamplingReader.h#readNextValue", "src/IndexableFile.h#triggerReload", "src/IndexableFile.h#operator[]"]}
{"id": "C75", "title": "Streaming an interpolated loop has no dropouts", "statement": "With one serviced reload per update, a file played forwards with a repeated loop and linear or cubic interpolation is transmitted exactly as if all of it were in memory, including the interpolation across every jump from the end of the loop to its beginning, for as long as it plays and at whatever speed the program sets in between; no sample used for interpolation is replaced by silence.", "quantifier": "every file, loop, start position, interpolation type, number of channels, sequence of updates and changes of speed within the streaming limit, rounding, and buffer geometry with enough buffers", "why_tests_cant": "interpolation reads more samples per output sample than plain playback and looks back before the position; whether all of them are loaded at the jump depends on the loop, the rate, the fraction of the position and the alignment of the loop to the blocks", "anchors": ["src/ResamplingReader.h#readNextValue", "src/IndexableFile.h#triggerReload", "src/IndexableFile.h#preLoadBuffers", "src/IndexableFile.h#operator[]"]}
{"id": "C76", "title": "A loop can be left while the file streams", "statement": "When the program switches looping off with setLoopType(looptype_none) while a file streams in a repeated loop, playback goes on from the current position to the end of the file, and is transmitted exactly as if all of the file were in memory; no sample is replaced by silence, whenever the program does so.", "quantifier": "every file, loop, start position, interpolation type, number of channels, every sequence of updates and changes of speed before and after, every moment of leaving, rounding, and buffer geometry with enough buffers", "why_tests_cant": "which blocks are buffered when the loop is left depends on the position in the loop and on how the buffers were rotated by the last jump; the dropouts only begin when all blocks loaded before have been played", "anchors": ["src/ResamplingReader.h#setLoopType", "src/IndexableFile.h#setLoopType", "src/IndexableFile.h#triggerReload", "src/IndexableFile.h#findMaxBuffer"]}
{"id": "C77", "title": "The default buffers suffice to hear the whole file", "statement": "A 16-bit file played forward from SD card, LittleFS or serial flash with the buffer sizes the library sets by default is heard without gaps at the normal speed, whether raw or WAV, mono or stereo: each update transmits the file's samples, none replaced by silence.", "quantifier": "every file below 2^31 bytes, header size, number of channels, start frame, rate on a binary grid, number of updates, rounding, and every buffer geometry", "why_tests_cant": "whether a block is in memory depends on the block size, the alignment of the header and of the start frame to blocks, the rate and the number of channels, and the deficit only builds up over successive updates; a short or raw mono test file hides it", "anchors": ["src/ResamplingSerialFlashReader.h#ResamplingSerialFlashReader", "src/IndexableFile.h#operator[]", "src/IndexableFile.h#triggerReload", "src/IndexableFile.h#preLoadBuffers", "src/ResamplingReader.h#triggerReload"]}
{"id": "C78", "title": "Running the events late costs no more than the delay", "statement": "The program that owns a file player must run its pending events (EventResponder yield or runPolled) now and then, but not after every update. As long as it does so before the buffers are used up, a file played forward sounds exactly as if it were in memory; if it is late, playback keeps its timing, what is not in memory is silence, and as soon as the events are run again the file is heard again.", "quantifier": "every file below 2^31 bytes, raw or WAV, start frame, rate and changes of rate up to R, buffer geometry, rounding, allocation failures, and every interleaving of updates, runs of the event handler and speed changes", "why_tests_cant": "there are unboundedly many interleavings of interrupt and main program; a test fixes one schedule, usually one event run per update, and hears nothing wrong", "anchors": ["src/playresmp.h#update", "src/playresmp.h#triggerReload", "src/IndexableFile.h#triggerReload", "src/IndexableFile.h#preLoadBuffers", "src/ResamplingReader.h#triggerReload"]}
{"id": "C79", "title": "A failed read from the card is heard as a gap", "statement": "If a read from the card fails or delivers less than a block, the player keeps playing in time: every sample transmitted is the file's own or silence, never a sample of another place, the stop comes when it would have come, and once reads succeed again the file is heard again.", "quantifier": "every file below 2^31 bytes, raw or WAV, start frame, rate and changes of rate up to R, buffer geometry, rounding, allocation failures, interleaving of updates, event runs and speed changes, and every sequence of read outcomes: complete, short, or an error that leaves any contents and any cursor behind", "why_tests_cant": "which of the unboundedly many reads fail, and how, cannot be enumerated; test files never fail to read, and that the sound does not return shows only when the failing block is the one being played", "anchors": ["src/IndexableFile.h#loadBuffer", "src/IndexableFile.h#triggerReload", "src/IndexableFile.h#operator[]", "src/IndexableFile.h#preLoadBuffers", "src/playresmp.h#update"]}
{"id": "C80", "title": "Several players at once do not disturb each other", "statement": "A program may play any number of files at the same time in polled mode, calling runPolled() now and then. What a player does depends on nothing but its own settings and updates and on when its event is run. If runPolled() is called often enough - wherever there are fewer calls than players, no player has more updates than its buffers last - every file played forward (no loop, no interpolation) is heard exactly as if it were in memory; in particular one call for each round of updates is enough for as many players as the buffers last updates (24 mono files from an SD card at up to normal speed).", "quantifier": "every number of players, every mix of raw and WAV files, buffer geometries and speeds, every interleaving of updates of any players, runPolled calls and speed changes, allocation failures, roundings", "why_tests_cant": "interleavings of many players are unbounded, and whether an event in a long queue is served in time depends on all the others; tests play one or two files", "anchors": ["src/AudioEventResponder.h#runPolled", "src/AudioEventResponder.h#triggerEvent", "src/AudioEventResponder.cpp#addToList", "src/playresmp.h#update", "src/playresmp.h#event_response", "src/IndexableFile.h#triggerReload"]}
{"id": "C81", "title": "Whatever is done to a streaming player, it keeps its place and never plays a wrong sample", "statement": "While a file streams, the program may change speed, direction, loop kind, loop points, start and stop at any time, run events at any time or never, and block reads may fail altogether. The player stays at the place (frame, direction, playing or not) where a player with the whole file in memory would be after the same calls, transmits and releases the same blocks and raises the same events. With one playback head and without interpolation every sample it plays is the one that player plays or silence, never a sample from elsewhere, and update() is never undefined where it is not for the player in memory; only running an event can hang or read out of bounds (C19, C20). With the second head or interpolation the place, the blocks and the events are still the same.", "quantifier": "every file, buffer geometry, raw or WAV start, every sequence of updates, event runs and calls of the setters, every set of failing reads and allocations, every rounding", "why_tests_cant": "the sequences of calls between updates, and the moments at which blocks are missing, are unbounded; tests exercise one setting at a time with all blocks present", "anchors": ["src/ResamplingReader.h#read", "src/ResamplingReader.h#readNextValue", "src/ResamplingReader.h#setPlaybackRate", "src/ResamplingReader.h#setLoopType", "src/IndexableFile.h#operator[]", "src/IndexableFile.h#triggerReload", "src/playresmp.h#update"]}
{"id": "C82", "title": "Up to normal speed, interpolation needs nothing that plain playback does not", "statement": "Wherever a streaming player without interpolation plays exactly what it would from memory, turning on linear or cubic interpolation keeps that true at up to normal speed: backwards, in a repeated loop, in a repeated loop backwards, in a loop to and fro, whether interpolation was chosen before the file was opened or while it plays. It does not need larger buffers or other loop points, and it reads no sample outside the buffers.", "quantifier": "every file, buffer geometry, channel count up to 8, start position, loop, sequence of updates and of speed changes up to normal speed, every rounding", "why_tests_cant": "the interpolators look at neighbouring frames, which may lie in the block before or after, at the other end of a loop or outside the file; whether such a frame is buffered depends on the block positions of every frame reached, for every speed", "anchors": ["src/ResamplingReader.h#readNextValue", "src/ResamplingReader.h#enableInterpolation", "src/ResamplingReader.h#read", "src/IndexableFile.h#operator[]", "src/ResamplingReader.h#play"]}
{"id": "C83", "title": "Whatever files are played, nothing undefined happens", "statement": "A program creates a file player and then plays raw and WAV files one after the other, changes speed, start position, loops and interpolation, stops, runs events and lets updates happen, in any order and any number of times. However the files look, and whichever reads of samples fail or come up short, no call ever divides by zero, overflows, accesses memory out of bounds or through a null pointer, or fails to return; and every block sent to an output has 128 samples of 16 bits.", "quantifier": "every sequence of play, stop, setting, update and event calls from construction on; every file content; every result of every read; every buffer geometry; every rounding", "why_tests_cant": "the file contents, the order of calls, failed allocations and failed reads combine without bound, and undefined behaviour need not show in a test run; a player carries its header size, channel count, speed and fraction from one file to the next", "anchors": ["src/playresmp.h#playRaw", "src/playresmp.h#playWav", "src/playresmp.h#update", "src/playresmp.h#event_response", "src/ResamplingReader.h#play", "src/ResamplingReader.h#read", "src/IndexableFile.h#triggerReload", "src/waveheaderparser.h#readWaveHeaderFromBuffer"]}
{"id": "C84", "title": "Backwards and in loops, the right frame is heard at every instant", "statement": "playWav on a 16-bit WAV file, played backwards, repeated forwards or backwards, or to and fro, sends at every instant t exactly the frame of the data chunk that the position says: backwards from frame s the frame at s - t*speed rounded up, and silence and the end after the first frame; in a loop the position modulo the length of the loop; to and fro the position moves up and down by the speed and turns at both ends of the loop. Updates without memory do not move the position, and no sample is ever missing.", "quantifier": "every WAV file below 2 GB with its data at an even byte; every channel count; every representable speed within the streaming limit; every loop and start position that streams; every pattern of failed allocations; every buffer geometry", "why_tests_cant": "it speaks of every instant of an endless loop, of every file, speed and loop; fractions of positions and the moments of the jumps depend on all of them, and the samples come through a cache that is filled in the background", "anchors": ["src/playresmp.h#playWav", "src/playresmp.h#update", "src/ResamplingReader.h#read", "src/ResamplingReader.h#readNextValue", "src/ResamplingReader.h#play", "src/IndexableFile.h#triggerReload"]}
{"id": "C85", "title": "A WAV file that was cut off plays what there is of it, in time", "statement": "playWav on a 16-bit WAV file whose data chunk claims more bytes than the file holds (an interrupted recording or copy) starts, plays every sample the file does contain at its proper instant on its proper channel, keeps running for exactly the number of frames the header claims, then stops by itself; nothing undefined happens on the way. Behind the end of the file there should be silence.", "quantifier": "every file below 2 GB with its data at an even byte, cut anywhere behind the header; every claimed length whose sample numbers fit in 32 bits; every channel count; every representable forward rate within the streaming limit; every start frame in the file; every pattern of failed allocations; every buffer geometry", "why_tests_cant": "files can be cut at any byte, within a frame, at or within a buffer block; what is heard depends on where the cut falls relative to blocks, frames and updates, and on what the buffers contained before", "anchors": ["src/playresmp.h#playWav", "src/playresmp.h#update", "src/ResamplingReader.h#play", "src/ResamplingReader.h#read", "src/IndexableFile.h#operator[]", "src/IndexableFile.h#loadBuffer", "src/IndexableFile.h#triggerReload"]}
{"id": "C86", "title": "Interpolated playback of a WAV file follows the curve through its frames", "statement": "playWav on a 16-bit WAV file, played forwards from any frame with interpolation at a speed up to normal, transmits at every instant t, on every channel, the value of the curve through the frames of the data chunk at the position start + t*speed, delayed by the fixed latency of the method: one frame for linear interpolation (within one unit of the straight line and never louder than the two samples it lies between, exactly on a sample at normal speed), two frames for cubic interpolation (within two units of the cubic, silence until four frames have been used). Updates without memory do not move the position, no sample is missing, and playback ends by itself at the end of the data. Backwards, and in a repeated loop in either direction, the same holds of the frames in the order in which they are met, with no break where the loop jumps. All frames of the file, and only those, should be heard.", "quantifier": "every WAV file below 2 GB with its data at an even byte, with 1 to 8 channels; every representable speed in (0, 1]; every start frame; every state left over from earlier sounds; every pattern of failed allocations; every buffer geometry within the streaming limit", "why_tests_cant": "the value at an instant depends on speed, start position, buffered neighbours and floating point rounding; no set of recordings covers all speeds and positions across block and update borders", "anchors": ["src/playresmp.h#playWav", "src/playresmp.h#update", "src/ResamplingReader.h#play", "src/ResamplingReader.h#readNextValue", "src/interpolation.cpp#fastinterpolate", "src/IndexableFile.h#operator[]"]}
{"id": "C87", "title": "positionMillis follows the sound of a streamed WAV file", "statement": "While a 16-bit WAV file is played forwards from a card or flash, positionMillis() tells where the sound is, whenever it is called: it is the time that belongs to the frame heard next, within a few milliseconds. Updates that get no memory do not move it, speed changes count from the moment they are made, and neither late event service nor blocks that cannot be read put it out of step.", "quantifier": "every WAV file below 2 GB, every position of its data chunk, channel count and start frame; every list of updates, event polls and speed changes in any order, with any pattern of failed allocations; every pattern of reads that deliver a block or nothing; every representable forward rate; every buffer geometry and IEEE rounding mode, on Teensy 4", "why_tests_cant": "the displayed time is computed by floating point from the position, the file size and an integer constant, and the position depends on the whole history of updates, allocations, speeds and reads; the histories cannot be enumerated", "anchors": ["src/ResamplingSdReader.h#positionMillis", "src/ResamplingReader.h#lengthMillis", "src/playresmp.h#positionMillis", "src/playresmp.h#update", "src/ResamplingReader.h#read", "src/ResamplingReader.h#setPlaybackRate"]}
{"id": "C88", "title": "A streamed file is read in order, each block once, and no further ahead than there are buffers", "statement": "While a raw or 16-bit WAV file is played forwards from a card or flash, the file is read block by block from the block the sound starts in: no block is read twice and none is skipped, however often or late the program runs the events and whatever the speed. At any moment no block has been read that lies N or more blocks after the one being played (N the number of buffers), so playing a whole file costs at most its own blocks and N more reads, whatever the reads return.", "quantifier": "every file below 2 GB, channel count and start frame; every list of updates, event polls and forward speed changes in any order, with any pattern of failed allocations; every outcome of every read (for the order) or reads that succeed (for the amount); every buffer geometry and IEEE rounding mode", "why_tests_cant": "which blocks are read depends on which buffers were touched between two events, that is on speeds, positions, allocation failures and the timing of the main program; a test sees single interleavings only", "anchors": ["src/IndexableFile.h#triggerReload", "src/IndexableFile.h#preLoadBuffers", "src/IndexableFile.h#loadBuffer", "src/IndexableFile.h#findMaxBuffer", "src/playresmp.h#event_response", "src/ResamplingReader.h#play"]}
{"id": "C89", "title": "Backwards is the mirror of forwards", "statement": "A 16-bit WAV file played backwards, from the end of its sound or any frame of it, is heard block for block as a file with the same frames in reverse order played forwards at the same speed: the same samples on every channel, the same updates with and without sound, and the end at the same update. It makes no difference on which storage the two files lie and how many buffers of what size each reader has, and it stays so with linear or cubic interpolation up to normal speed. It also stays so while both speeds are changed by the same amounts.", "quantifier": "every pair of 16-bit WAV files below 2 GB whose frames are each other's reverse, wherever the data chunks lie; every channel count (with interpolation: up to 8); every speed (with interpolation: up to normal) and every sequence of updates and changes of speed; every pattern of failed allocations; every two buffer geometries and rounding to nearest (every IEEE rounding mode where positions are exact)", "why_tests_cant": "the backward branch of the sample arithmetic, the backward order of buffer reloads and the backward interpolation history are separate code, and their agreement with the forward one concerns all files, speeds and histories at once", "anchors": ["src/ResamplingReader.h#readNextValue", "src/ResamplingReader.h#read", "src/ResamplingReader.h#reset", "src/IndexableFile.h#triggerReload", "src/ResamplingReader.h#playWav"]}
{"id": "C90", "title": "A repeated loop sounds like the loop written out", "statement": "A 16-bit WAV file played with a repeated loop, forwards or backwards, sounds block for block like a file without a loop that contains the frames in the order in which the loop meets them, for as long as that file lasts: nothing is added, left out or delayed where the loop jumps, also with linear or cubic interpolation, which runs over the jump as over any neighbouring frames.", "quantifier": "every 16-bit WAV file below 2 GB, loop, start frame in it and channel count; every file that contains the loop written out, from any frame on; every speed below normal, also changed while playing; every pattern of failed allocations and any number of updates; every two buffer geometries and rounding to nearest (every IEEE rounding mode forwards or where positions are exact)", "why_tests_cant": "the jump happens at a position that depends on speed, remainder and number of passes, and each jump also moves the buffers; a test hears a few of the passes of a few loops", "anchors": ["src/ResamplingReader.h#readNextValue", "src/ResamplingReader.h#read", "src/ResamplingReader.h#setLoopStart", "src/ResamplingReader.h#setLoopFinish", "src/IndexableFile.h#triggerReload"]}
{"id": "C91", "title": "A raw file and a WAV file with the same samples sound the same", "statement": "A headerless raw file played with the right number of channels sounds block for block like a 16-bit WAV file whose data chunk holds the same frames, forwards, backwards, repeated in both directions and to and fro; the header, its tags and where the data chunk lies are not heard.", "quantifier": "every 16-bit WAV file and raw file below 2 GB with the same frames, channel count, start frame and loop; every speed, changed at will within the limits of the cache; every interpolation; every pattern of failed allocations and any number of updates; every two buffer geometries and IEEE rounding mode", "why_tests_cant": "the two files reach the same frames through different offsets in different buffers, so an error in the offset arithmetic of one path shows only at particular positions, loops and block borders; a test compares a few positions of a few files", "anchors": ["src/ResamplingReader.h#play", "src/ResamplingReader.h#reset", "src/ResamplingReader.h#readNextValue", "src/ResamplingReader.h#_samples_to_start", "src/IndexableFile.h#operator[]"]}
{"id": "C92", "title": "Any speed is kept: frames are heard when they are due", "statement": "At any playback rate, also one that double precision adds up inexactly, the frame heard at instant t is the one at start + t * rate, but for a displacement of at most one rounding (2^-52 frames up to normal speed, 2^k/2^53 up to speed 2^k - 1) for each instant passed; frames are heard in order and the sound ends when that position passes the end, to the same accuracy. A loop repeated at less than normal speed sounds likewise like a tape on which the loop is written out for ever. So pitch and length do not wander, however long the sound.", "quantifier": "every 16-bit WAV file or raw file below 2 GB, channel count and start frame; every rate, forwards and backwards, to the end or in a repeated loop; every fraction left in the accumulator; every pattern of failed allocations and any number of updates; every buffer geometry and IEEE rounding mode", "why_tests_cant": "rounding errors add up over millions of frames and depend on each bit of the rate; a test plays some blocks at a few rates, mostly ones that are exact", "anchors": ["src/ResamplingReader.h#readNextValue", "src/ResamplingReader.h#setPlaybackRate", "src/ResamplingReader.h#read"]}
{"id": "C93", "title": "Each channel of a file sounds like a mono file of that channel", "statement": "Output c of a player playing a file with several channels sends, update for update, exactly the blocks that a player with the same settings sends when it plays the mono file with the samples of channel c alone. Channels neither leak into each other nor run at different speeds nor end at different times, and the number of the other channels, the header and the buffer size make no difference; also while the speed of both is changed again and again.", "quantifier": "every 16-bit WAV file below 2 GB, channel count and channel; every start frame, loop bounds and rate, forwards and backwards; every interpolation up to normal speed; every sequence of updates, of failed allocations and of speed changes; every two buffer geometries and IEEE rounding mode", "why_tests_cant": "it compares two runs for every number of channels, every position and every speed, across all buffer boundaries; a test compares a few blocks of one stereo file", "anchors": ["src/ResamplingReader.h#readNextValue", "src/ResamplingReader.h#read", "src/playresmp.h#update"]}
{"id": "C94", "title": "Start and loop marks are counted from the beginning of the sound", "statement": "A player set to start at frame n or later, with its loop at frame n or later, sounds update for update exactly like a player of the same sound without its first n frames that is set to start and to loop n frames earlier; with a loop, what comes after the loop can be cut off too. What lies before the marks or behind the loop makes no difference, cutting it off the file changes nothing but the numbers, and neither the header nor the buffer size matters; also while the speed of both is changed again and again.", "quantifier": "every 16-bit WAV file below 2 GB, channel count and number n of frames cut off; every start frame, loop bounds and rate, forwards to the end, round and round forwards and backwards, to and fro; every interpolation up to normal speed; every sequence of updates, of failed allocations and of speed changes; every two buffer geometries and IEEE rounding mode", "why_tests_cant": "it compares two runs for every place of the marks and every speed, across all buffer boundaries, for as long as the loop goes on; a test compares a few blocks for one pair of files", "anchors": ["src/ResamplingReader.h#reset", "src/ResamplingReader.h#setLoopStart", "src/ResamplingReader.h#setPlayStart", "src/ResamplingReader.h#readNextValue"]}
{"id": "C95", "title": "Playback is never louder than the sound, and silence stays silent", "statement": "No sample a player hands to the audio library exceeds the loudest sample of the sound it plays in magnitude, and a sound of zeros is played as zeros: looping, changing the speed or the direction, interpolating, fading between two heads, running out of buffered data, the padding behind the end and the header of the file add nothing that is not in the sound.", "quantifier": "every array, raw file and 16-bit WAV file, channel count and loudness; every sequence of updates, failed allocations, failed reads, events run late and changes of settings (for silence: all of them, second head and interpolation included); every buffer geometry and IEEE rounding mode", "why_tests_cant": "it bounds every sample of every run, whatever the speed, the fraction between samples and the rounding; a test hears a few blocks of a few sounds", "anchors": ["src/ResamplingReader.h#readNextValue", "src/ResamplingReader.h#read", "src/interpolation.cpp#fastinterpolate", "src/playresmp.h#update"]}
{"id": "C96", "title": "The inverse of a sound plays as the inverse", "statement": "Two players in the same state, one given a sound and one given its inverse (every sample with the opposite sign), send blocks that add up to silence, sample for sample, as long as the same is done to both: reading, looping, fading between two heads and interpolating treat both signs alike, so that an inverted copy cancels the original and no offset or bias is added to the sound.", "quantifier": "every sound, state of the player and channel count; every sequence of updates, failed allocations, events run late and changes of settings; every rounding that treats both signs alike, as to nearest does; with cubic interpolation but for samples that are clipped", "why_tests_cant": "it compares two runs for every sound, speed and fraction between samples; a bias of one unit in some of the roundings is not heard in a test of a few blocks", "anchors": ["src/ResamplingReader.h#readNextValue", "src/ResamplingReader.h#read", "src/interpolation.cpp#fastinterpolate", "src/playresmp.h#update"]}
