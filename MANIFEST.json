{
 "claims": [
  {
   "property": "C01",
   "status": "proved",
   "theorems": [
    "TVP.C01_header_roundtrip",
    "TVP.C01_header_injective"
   ],
   "note": ""
  },
  {
   "property": "C02",
   "status": "proved",
   "theorems": [
    "TVP.C02_accept_iff",
    "TVP.C02_prefix_only"
   ],
   "note": ""
  },
  {
   "property": "C03",
   "status": "partial",
   "theorems": [
    "TVP.C03_clean_rejection_partial",
    "TVP.C03_exact",
    "TVP.C03_refuted"
   ],
   "note": "The code violates the claim: a wrong WAVE tag reaches printf(\"%s\", char). C03_exact says exactly which buffers fault."
  },
  {
   "property": "C04",
   "status": "proved",
   "theorems": [
    "TVP.C04_chunk_walk",
    "TVP.C04_accepted_only_if",
    "TVP.C04_total",
    "TVP.C04_overlong_list"
   ],
   "note": ""
  },
  {
   "property": "C05",
   "status": "proved",
   "theorems": [
    "TVP.C05_playable_iff",
    "TVP.C05_result_is_playing"
   ],
   "note": ""
  },
  {
   "property": "C06",
   "status": "proved",
   "theorems": [
    "TVP.C06_parameters"
   ],
   "note": "Channel count, frame count and the first frame read through the real file reader; any buffer geometry, any rate up to 2^15."
  },
  {
   "property": "C07",
   "status": "proved",
   "theorems": [
    "TVP.C07_file_array_agree"
   ],
   "note": ""
  },
  {
   "property": "C08",
   "status": "partial",
   "theorems": [
    "TVP.C08_in_bounds_partial",
    "TVP.C08_refuted"
   ],
   "note": "The code violates the claim when a LIST chunk length exceeds the image."
  },
  {
   "property": "C09",
   "status": "partial",
   "theorems": [
    "TVP.C09_positive_channels_partial",
    "TVP.C09_refuted_raw",
    "TVP.C09_refuted_array"
   ],
   "note": "The code violates the claim: zero channels divide by zero or hang."
  },
  {
   "property": "C10",
   "status": "proved",
   "theorems": [
    "TVP.C10_range"
   ],
   "note": ""
  },
  {
   "property": "C11",
   "status": "proved",
   "theorems": [
    "TVP.C11_cubic",
    "TVP.C11_ideal",
    "TVP.C11_ideal_nodes",
    "TVP.C11_float_node_off"
   ],
   "note": ""
  },
  {
   "property": "C12",
   "status": "proved",
   "theorems": [
    "TVP.C12_nodes"
   ],
   "note": ""
  },
  {
   "property": "C13",
   "status": "proved",
   "theorems": [
    "TVP.C13_polynomial"
   ],
   "note": ""
  },
  {
   "property": "C14",
   "status": "proved",
   "theorems": [
    "TVP.C14_cached_sample"
   ],
   "note": ""
  },
  {
   "property": "C15",
   "status": "proved",
   "theorems": [
    "TVP.C15_read_only"
   ],
   "note": ""
  },
  {
   "property": "C16",
   "status": "proved",
   "theorems": [
    "TVP.C16_bounded",
    "TVP.C16_pool"
   ],
   "note": ""
  },
  {
   "property": "C17",
   "status": "proved",
   "theorems": [
    "TVP.C17_no_dropouts",
    "TVP.C17_raw",
    "TVP.C17_wav"
   ],
   "note": "C17_no_dropouts: any reads going forward by at most mm blocks per round, N >= 2mm+1 buffers, every value is the file's and the miss counter stays 0 (any start, any block size below 16384 samples, any file below 2^31 bytes). C17_raw and C17_wav: the whole player (play, update, event service) behaves exactly like a player with the file in memory, for every allocation pattern, any rate up to R."
  },
  {
   "property": "C18",
   "status": "partial",
   "theorems": [
    "TVP.C18_no_dropouts_partial",
    "TVP.C18_raw_partial",
    "TVP.C18_wav_partial",
    "TVP.C18_refuted",
    "TVP.C18_player_refuted",
    "TVP.C18_frame_refuted"
   ],
   "note": "Violated as stated: play() backwards loads only one block in advance when that block is less than half inside the file (C18_refuted for every geometry and file, C18_player_refuted for the whole SD player), and a first frame crossing a block boundary upwards loses channels (C18_frame_refuted). Proved otherwise: reads going backward by at most mm blocks per round with N >= 2mm+1 buffers never miss (C18_no_dropouts_partial), and the whole player behaves exactly like a player with the file in memory (C18_raw_partial, C18_wav_partial), for any start mode, rate down to -R and allocation pattern."
  },
  {
   "property": "C19",
   "status": "partial",
   "theorems": [
    "TVP.C19_returns_partial",
    "TVP.C19_stuck",
    "TVP.C19_refuted"
   ],
   "note": "Violated: reversing right after the start of a long file makes the handler loop forever. The stuck situation is characterised exactly; everywhere else the handler returns."
  },
  {
   "property": "C20",
   "status": "partial",
   "theorems": [
    "TVP.C20_in_bounds_partial",
    "TVP.C20_refuted",
    "TVP.C20_short_vector"
   ],
   "note": "Violated: looping a file shorter than the buffers indexes past the vector. Proved without a loop or with a full vector."
  },
  {
   "property": "C21",
   "status": "proved",
   "theorems": [
    "TVP.C21_interrupted",
    "TVP.C21_undisturbed",
    "TVP.C21_steps_faithful",
    "TVP.C21_evicted_garbage"
   ],
   "note": "Small-step model of triggerReload with audio reads between any two steps; the sections under AudioNoInterrupts are single steps. The exception for the block being evicted is shown to be real by C21_evicted_garbage."
  },
  {
   "property": "C22",
   "status": "proved",
   "theorems": [
    "TVP.C22_tail",
    "TVP.C22_limit"
   ],
   "note": "C22_limit shows why the block size has to be below 16384."
  },
  {
   "property": "C23",
   "status": "proved",
   "theorems": [
    "TVP.C23_count_and_alignment"
   ],
   "note": ""
  },
  {
   "property": "C24",
   "status": "proved",
   "theorems": [
    "TVP.C24_split_read"
   ],
   "note": ""
  },
  {
   "property": "C25",
   "status": "proved",
   "theorems": [
    "TVP.C25_forward_law",
    "TVP.gridRate_of_float"
   ],
   "note": "Stated for array playback through playRaw and any sequence of reads."
  },
  {
   "property": "C26",
   "status": "proved",
   "theorems": [
    "TVP.C26_exact_length"
   ],
   "note": ""
  },
  {
   "property": "C27",
   "status": "proved",
   "theorems": [
    "TVP.C27_reverse_law",
    "TVP.C27_reverse_closed"
   ],
   "note": "Start frame given by setPlayStart, or the default start for mono, or play_start_loop."
  },
  {
   "property": "C28",
   "status": "proved",
   "theorems": [
    "TVP.C28_repeat_law"
   ],
   "note": ""
  },
  {
   "property": "C29",
   "status": "partial",
   "theorems": [
    "TVP.C29_inside_loop_partial",
    "TVP.C29_refuted"
   ],
   "note": "Violated by reverse loops with the default play start (lower bound is sample 0); proved for arbitrary play start and loops of at least nch frames."
  },
  {
   "property": "C30",
   "status": "partial",
   "theorems": [
    "TVP.C30_inside_loop_partial",
    "TVP.C30_pingpong_law_partial",
    "TVP.C30_refuted"
   ],
   "note": "Violated with the default play start (runs below the loop start); proved for arbitrary play start and loops of at least nch frames; exact sequence at unit rate."
  },
  {
   "property": "C31",
   "status": "proved",
   "theorems": [
    "TVP.C31_no_drift",
    "TVP.C31_any_double"
   ],
   "note": "Grid part for every configuration but ping-pong."
  },
  {
   "property": "C32",
   "status": "partial",
   "theorems": [
    "TVP.C32_returns",
    "TVP.C32_hangs",
    "TVP.C32_loop_frames_partial",
    "TVP.C32_refuted_stereo",
    "TVP.C32_empty_loop"
   ],
   "note": "Exact characterisation proved (returns iff the loop can be entered). The claim as stated is violated for a one-frame stereo loop played backwards; C32_loop_frames_partial gives the loops that are fine."
  },
  {
   "property": "C33",
   "status": "partial",
   "theorems": [
    "TVP.C33_array_safe_partial",
    "TVP.C33_playRaw",
    "TVP.C33_refuted_turn",
    "TVP.C33_refuted_cubic_pingpong",
    "TVP.C33_refuted_cubic_fast",
    "TVP.C33_refuted_linear_fast_reverse",
    "TVP.C33_refuted_nine_channels",
    "TVP.C33_refuted_dual"
   ],
   "note": "Proved for any sequence of reads and setter calls on the stated domain; the refutations show configurations outside it that read past the array."
  },
  {
   "property": "C34",
   "status": "partial",
   "theorems": [
    "TVP.C34_weight_range_partial",
    "TVP.C34_start",
    "TVP.C34_mix",
    "TVP.C34_no_louder",
    "TVP.C34_refuted_flip"
   ],
   "note": "Weight in [0,1] proved while direction and duration are unchanged; reversing during a fade drives the weight out of range (C34_refuted_flip)."
  },
  {
   "property": "C35",
   "status": "proved",
   "theorems": [
    "TVP.C35_never_dry"
   ],
   "note": "Every successful read delivers n frames. That a read succeeds at all for dual-head playback is C33/C44."
  },
  {
   "property": "C36",
   "status": "proved",
   "theorems": [
    "TVP.C36_stopped_inert",
    "TVP.C36_after_stop"
   ],
   "note": ""
  },
  {
   "property": "C37",
   "status": "partial",
   "theorems": [
    "TVP.C37_play_start_partial",
    "TVP.C37_playRaw_start_partial",
    "TVP.C37_playFile_start_partial",
    "TVP.C37_refuted_array",
    "TVP.C37_refuted_loop"
   ],
   "note": "Forward for all modes and channel counts; reverse for user positions, files whose data ends the file, and mono. Refuted for reverse stereo arrays and reverse stereo loops."
  },
  {
   "property": "C38",
   "status": "partial",
   "theorems": [
    "TVP.C38_same_again_partial",
    "TVP.C38_whole_rate_partial",
    "TVP.C38_refuted_remainder",
    "TVP.C38_refuted_linear",
    "TVP.C38_refuted_pingpong"
   ],
   "note": "Same outcome if fraction and direction are unchanged and interpolation is off or cubic; unconditional for whole-number rates. Refuted for left-over fractions, linear interpolation and ping-pong."
  },
  {
   "property": "C39",
   "status": "proved",
   "theorems": [
    "TVP.C39_no_jump",
    "TVP.C39_moves",
    "TVP.C39_dual",
    "TVP.C39_turn_round"
   ],
   "note": ""
  },
  {
   "property": "C40",
   "status": "proved",
   "theorems": [
    "TVP.C40_round_trip",
    "TVP.C40_file_setters"
   ],
   "note": "Rates that are floats (playbackRate() returns float), loop points below 2^31, up to 32767 channels."
  },
  {
   "property": "C41",
   "status": "partial",
   "theorems": [
    "TVP.C41_loop_here_partial",
    "TVP.C41_refuted"
   ],
   "note": "Arrays (no header), unit rate. Refuted for WAV files: the header is counted into the loop start."
  },
  {
   "property": "C42",
   "status": "proved",
   "theorems": [
    "TVP.C42_linear",
    "TVP.C42_exact"
   ],
   "note": "All grid rates in (0,1], any rounding, any leftover fraction, arrays of up to eight channels; exact for rates that are multiples of 2^-38. The output runs one frame behind; the samples before the second source frame used are described exactly (first source frame, or what the reader held before, see C64)."
  },
  {
   "property": "C43",
   "status": "proved",
   "theorems": [
    "TVP.C43_unit",
    "TVP.C43_cubic"
   ],
   "note": "Unit rate in exact arithmetic; any grid rate in (0,1] and any rounding within 2 of the exact saturated cubic. Arrays of up to eight channels, started from the first sample, no looping."
  },
  {
   "property": "C44",
   "status": "partial",
   "theorems": [
    "TVP.C44_file_partial",
    "TVP.C44_dual_partial",
    "TVP.C44_rate_bound_needed"
   ],
   "note": "Proved for file playback, single and dual head, when header + nch*(frames + rate bound + 5) fits in int32. From construction on, for any files played forwards: C83."
  },
  {
   "property": "C45",
   "status": "proved",
   "theorems": [
    "TVP.C45_transmits",
    "TVP.C45_file",
    "TVP.C45_array"
   ],
   "note": "every reader and channel count"
  },
  {
   "property": "C46",
   "status": "proved",
   "theorems": [
    "TVP.C46_no_leaks"
   ],
   "note": "every allocation outcome"
  },
  {
   "property": "C47",
   "status": "proved",
   "theorems": [
    "TVP.C47_event"
   ],
   "note": "both directions"
  },
  {
   "property": "C48",
   "status": "proved",
   "theorems": [
    "TVP.C48_playback_ends",
    "TVP.C48_close_is_raised",
    "TVP.C48_end_comes"
   ],
   "note": "file players; every schedule of updates and event runs; C48_end_comes: the end comes after a bounded number of updates for WAV files played as in C59. Array players: see C49"
  },
  {
   "property": "C49",
   "status": "partial",
   "theorems": [
    "TVP.C49_refuted",
    "TVP.C49_stays_playing",
    "TVP.C49_silent_partial"
   ],
   "note": "refuted: array players never stop by themselves; silence after the end holds"
  },
  {
   "property": "C50",
   "status": "partial",
   "theorems": [
    "TVP.C50_not_playing",
    "TVP.C50_wav_partial",
    "TVP.C50_raw_partial",
    "TVP.C50_missing_file",
    "TVP.C50_array",
    "TVP.C50_refuted"
   ],
   "note": "not playing always holds; the following update does nothing unless the header claims 32768 or more channels (then undefined: array of negative size)"
  },
  {
   "property": "C51",
   "status": "partial",
   "theorems": [
    "TVP.C51_refuted"
   ],
   "note": "The code violates the claim: zero samples are played."
  },
  {
   "property": "C52",
   "status": "proved",
   "theorems": [
    "TVP.C52_files",
    "TVP.C52_arrays",
    "TVP.C52_start",
    "TVP.C52_start_array",
    "TVP.C52_update"
   ],
   "note": "Calls are programs of small steps; update() may come between any two. Assumes stores reach memory in program order (of the fields only _playing is volatile)."
  },
  {
   "property": "C53",
   "status": "proved",
   "theorems": [
    "TVP.C53_restored",
    "TVP.C53_masked",
    "TVP.C53_forced",
    "TVP.C53_extra_enable",
    "TVP.C53_force_inside"
   ],
   "note": "Any nesting with attachments and updateResponse anywhere. Between attach and the following updateResponse the flag is set (that is how attach works); masked from updateResponse on. Toggling the force flag inside a nesting loses the flag (C53_force_inside)."
  },
  {
   "property": "C54",
   "status": "proved",
   "theorems": [
    "TVP.C54_first_come_first_served",
    "TVP.C54_latest_status"
   ],
   "note": "Any number of players, any sequence of triggers and polls, triggers also arriving during polls (between reading the list head and removing it, before and during the event function)."
  },
  {
   "property": "C55",
   "status": "partial",
   "theorems": [
    "TVP.C55_careful_partial",
    "TVP.C55_refuted",
    "TVP.C55_refuted_detach"
   ],
   "note": "Violated: stopping a waiting polled player and triggering it again drops everything behind it for good; detaching the last of the line leads to a null dereference. Holds if no event cancelled while waiting is triggered again before it was served (or it is last in line)."
  },
  {
   "property": "C56",
   "status": "proved",
   "theorems": [
    "TVP.C56_result",
    "TVP.C56_waiting"
   ],
   "note": "For every state and interrupt pattern; and in terms of the history of triggers and runs."
  },
  {
   "property": "C57",
   "status": "partial",
   "theorems": [
    "TVP.C57_accurate",
    "TVP.C57_accurate_teensy3",
    "TVP.C57_within_1ms_partial",
    "TVP.C57_refuted"
   ],
   "note": "within 1.17 ms always (1.26 ms on Teensy 3); within 1 ms exactly below 29417699 bytes; refuted above"
  },
  {
   "property": "C58",
   "status": "partial",
   "theorems": [
    "TVP.C58_bounded_partial",
    "TVP.C58_monotone_partial",
    "TVP.C58_refuted"
   ],
   "note": "every rounding mode, size >= 2 bytes; refuted for a one-byte raw file (NaN converted to integer)"
  },
  {
   "property": "C59",
   "status": "proved",
   "theorems": [
    "TVP.C59_end_to_end",
    "TVP.C59_raw"
   ],
   "note": "The transmitted blocks, events and the final state of every sequence of updates (each followed by servicing its event), for any pattern of allocation failures, equal the independent description Spec.soundPlay computed from the file's bytes; grid rates (exact accumulator), N >= 2mm+1 buffers, data chunk at an even byte."
  },
  {
   "property": "C60",
   "status": "partial",
   "theorems": [
    "TVP.C60_raw_partial",
    "TVP.C60_wav_partial",
    "TVP.C60_back_raw_partial",
    "TVP.C60_back_wav_partial",
    "TVP.C60_start_refuted",
    "TVP.C60_short_refuted",
    "TVP.C60_back_half_refuted",
    "TVP.C60_back_fault_refuted",
    "TVP.C60_back_whole_refuted"
   ],
   "note": "Repeated loops in either direction (uninterpolated, single position) stream like memory for ever when the loop and the way from the start to its far end have at least as many blocks as there are buffers, or playback starts in the first block of the loop (in playing direction) and the file goes on in that direction for as long as the buffers. Refuted for a start near the end of a loop that began in an earlier block (silence), for files shorter than the buffers (access outside the vector), backwards for files that end in the first half of a block (silence, then access outside the vector) and for partial loops started at the end of the sound (silence). Ping-pong loops: C71. Interpolated loops: C75."
  },
  {
   "property": "C61",
   "status": "partial",
   "theorems": [
    "TVP.C61_array_partial",
    "TVP.C61_mono_partial",
    "TVP.C61_refuted"
   ],
   "note": "arrays and mono raw files; refuted for stereo files (reports twice the time)"
  },
  {
   "property": "C62",
   "status": "partial",
   "theorems": [
    "TVP.C62_constant_partial",
    "TVP.C62_refuted"
   ],
   "note": "refuted: always reports the length"
  },
  {
   "property": "C63",
   "status": "partial",
   "theorems": [
    "TVP.C63_yield_partial",
    "TVP.C63_cut_off",
    "TVP.C63_stale_event",
    "TVP.C63_refuted"
   ],
   "note": "Violated for polled players: clearEvent does not take the event off the polled list, so that a stale close event ends a sound just started. Holds for players attached to yield (base class clearEvent assumed to unlink)."
  },
  {
   "property": "C64",
   "status": "partial",
   "theorems": [
    "TVP.C64_refuted",
    "TVP.C64_partial"
   ],
   "note": "Refuted: linear interpolation starts with the previous sound's last sample, and reset() keeps the fractional position. Partial: with an empty accumulator, no looping and no or cubic interpolation nothing of the past remains."
  },
  {
   "property": "C65",
   "status": "partial",
   "theorems": [
    "TVP.C65_refuted",
    "TVP.C65_order_partial"
   ],
   "note": "Refuted: setLoopStart beyond the old finish hangs an update that comes before setLoopFinish. Proved for loops at least as many frames long as there are channels when the points are set in the order that keeps the loop non-empty."
  },
  {
   "property": "C66",
   "status": "partial",
   "theorems": [
    "TVP.C66_released_once",
    "TVP.C66_no_leak_partial",
    "TVP.C66_bounded_partial",
    "TVP.C66_all_released_partial",
    "TVP.C66_refuted"
   ],
   "note": "Memory as identified pieces on a heap shared by all file players. Releases: proved for every program. No leak, bounded amount and everything released at the end: proved for programs that destroy a player only when it is closed; C66_refuted shows that destroying a player that holds a sound leaks it (reader destructors do not close, and the player has no close function)."
  },
  {
   "property": "C67",
   "status": "partial",
   "theorems": [
    "TVP.C67_begin_partial",
    "TVP.C67_refuted"
   ],
   "note": "The beginning is proved for all files and even header sizes. The end is refuted: the frame count includes the header, so that as many samples as the header is long are played from beyond the end of the file."
  },
  {
   "property": "C68",
   "status": "partial",
   "theorems": [
    "TVP.C68_raw_partial",
    "TVP.C68_wav_partial",
    "TVP.C68_refuted",
    "TVP.C68_header_refuted"
   ],
   "note": "Proved for raw and WAV files, any start frame, no/linear/cubic interpolation, any rounding: the player equals one with the file in memory and never misses; linear at any rate up to the speed limit (starting on a frame when above rate one), cubic up to rate one, at most eight interpolated channels, non-negative accumulator. Violated by cubic interpolation above rate one: the frames before the first one are fetched, which are missing samples in a raw file and header bytes in a WAV file."
  },
  {
   "property": "C69",
   "status": "partial",
   "theorems": [
    "TVP.C69_accepts_iff",
    "TVP.C69_refused",
    "TVP.C69_plays_partial",
    "TVP.C69_back_partial",
    "TVP.C69_loop_partial",
    "TVP.C69_swing_partial",
    "TVP.C69_loop_back_partial",
    "TVP.C69_cubic_partial",
    "TVP.C69_linear_partial",
    "TVP.C69_refuted"
   ],
   "note": "Which well-formed files start is settled exactly, and all others are refused without a fault. Refuted: an odd (padded) LIST chunk, any other chunk before the data, several chunks, an extended format chunk. The sound is proved for plain forward and backward playback, loops repeated in either direction and to and fro, and interpolated playback up to normal speed of the files that start; interpolation in loops and backwards: C86. Missing: interpolation above normal speed."
  },
  {
   "property": "C70",
   "status": "partial",
   "theorems": [
    "TVP.C70_only_data_partial",
    "TVP.C70_refuted"
   ],
   "note": "Proved for one playback head, interpolation at moderate rates, loops inside the material and a start inside it (StartSettings, Sensible). Missing: crossfades, and settings with which playback leaves the data chunk. Refuted for a backward start with play start 'sample', which begins at the end of the file instead of the end of the data chunk."
  },
  {
   "property": "C71",
   "status": "partial",
   "theorems": [
    "TVP.C71_raw_partial",
    "TVP.C71_wav_partial",
    "TVP.C71_boundary_refuted",
    "TVP.C71_start_refuted",
    "TVP.C71_sample_refuted",
    "TVP.C71_short_refuted"
   ],
   "note": "Proved for raw and WAV files in both directions for the loops and starts of GoodPing: long loops whose last frame is in the block of the loop end, started at least as many blocks before the turn as there are buffers, within the speed limit; and loops held by the buffers filled at the start, at any speed. The full property is refuted: a loop ending with a block is never turned by the cache; a start near the end of the loop; a start at the beginning of the sound with a loop beginning later; a file shorter than the buffers."
  },
  {
   "property": "C72",
   "status": "partial",
   "theorems": [
    "TVP.C72_forward_raw_partial",
    "TVP.C72_forward_wav_partial",
    "TVP.C72_back_raw_partial",
    "TVP.C72_back_wav_partial",
    "TVP.C72_loop_raw_partial",
    "TVP.C72_loop_wav_partial",
    "TVP.C72_loop_back_raw_partial",
    "TVP.C72_loop_back_wav_partial",
    "TVP.C72_ping_raw_partial",
    "TVP.C72_ping_wav_partial",
    "TVP.C72_smooth_raw_partial",
    "TVP.C72_smooth_wav_partial",
    "TVP.C72_turn_refuted",
    "TVP.C72_back_refuted",
    "TVP.C72_ping_refuted",
    "TVP.C72_linear_refuted"
   ],
   "note": "Proved for every sequence of updates and changes of speed that keep the direction of the moment and do not move the position (C39), within the domains of C17, C18, C60, C68 and C71: forwards, backwards, loops repeated in either direction, ping-pong loops, and forwards with linear or cubic interpolation. Refuted: turning round during plain playback or in a long ping-pong loop misses samples; setting any negative speed when the first frame has been reached backwards never returns; linear interpolation raised above rate one between two frames misses a sample. Cross-faded loops: C74. Interpolated loops: C75. Interpolation backwards up to normal speed: C82."
  },
  {
   "property": "C73",
   "status": "partial",
   "theorems": [
    "TVP.C73_fade_law_partial",
    "TVP.C73_refuted"
   ],
   "note": "Whole law proved for loops that end before the material does and fades of less than half the loop; unit speed, no interpolation. To and fro and downwards, a loop that ends with the material reads one frame too far (C73_refuted)."
  },
  {
   "property": "C74",
   "status": "partial",
   "theorems": [
    "TVP.C74_raw_partial",
    "TVP.C74_wav_partial",
    "TVP.C74_fade_refuted",
    "TVP.C74_overrun_refuted"
   ],
   "note": "Proved (uninterpolated, at rates and changes of speed whose steps are exact) for loops longer than two fades of which either fade and two updates leave three buffers free and loop and start have at least as many blocks as there are buffers, or the whole loop lies in the buffers from its first block on and playback starts there. Refuted: a fade longer than the buffers misses samples from its first update on; above the normal speed a loop that ends at the end of a block misses the frame the first head overruns the end by. Missing: backwards and to and fro, interpolation."
  },
  {
   "property": "C75",
   "status": "partial",
   "theorems": [
    "TVP.C75_raw_partial",
    "TVP.C75_wav_partial",
    "TVP.C75_back_refuted"
   ],
   "note": "Proved for none, linear (any rate) and cubic interpolation (up to rate one), any rounding, every sequence of updates and changes of speed: long loops of which two updates leave three buffers free, started before the last buffers' length of the loop, and short loops that lie in the buffers from their first block on, at any speed. Linear above rate one: the frame before the loop must begin in the same block as the first of the loop. Refuted without that. Missing: cubic above rate one (violated, C68), more than eight interpolated channels, backwards and to and fro (up to normal speed: C82)."
  },
  {
   "property": "C76",
   "status": "partial",
   "theorems": [
    "TVP.C76_raw_partial",
    "TVP.C76_wav_partial",
    "TVP.C76_jump_refuted",
    "TVP.C76_last_refuted"
   ],
   "note": "Proved for loops that C75 covers and that have more blocks than there are buffers or lie in one block, left where LeaveAt allows; refuted right after the jump back (silence for the rest of the file) and in the last block of the loop."
  },
  {
   "property": "C77",
   "status": "partial",
   "theorems": [
    "TVP.C77_raw_law",
    "TVP.C77_wav_law",
    "TVP.C77_raw_silence_refuted",
    "TVP.C77_wav_silence_refuted",
    "TVP.C77_flash_wav_refuted",
    "TVP.C77_flash_raw_refuted",
    "TVP.C77_raw_slow_partial",
    "TVP.C77_wav_slow_partial",
    "TVP.C77_raw_aligned_partial",
    "TVP.C77_wav_aligned_partial"
   ],
   "note": "Exact law of what is heard with any buffers at rates on a grid. Refuted for serial flash: stereo is silent after the first update, mono WAV files lose part of every update. Holds at slow rates (SD: rate 24 in stereo) and when blocks and updates are aligned (raw mono from serial flash)."
  },
  {
   "property": "C78",
   "status": "partial",
   "theorems": [
    "TVP.C78_raw_law",
    "TVP.C78_wav_law",
    "TVP.C78_raw_partial",
    "TVP.C78_wav_partial",
    "TVP.C78_raw_recovers",
    "TVP.C78_wav_recovers",
    "TVP.C78_raw_refuted",
    "TVP.C78_wav_refuted"
   ],
   "note": "The law, the timely case and the recovery after a stall are proved for plain forward playback; that the sound is back as soon as events are run again is refuted for every file. Loops, backwards and interpolated playback with late events are not covered."
  },
  {
   "property": "C79",
   "status": "partial",
   "theorems": [
    "TVP.C79_own_samples",
    "TVP.C79_raw_partial",
    "TVP.C79_wav_partial",
    "TVP.C79_short_refuted",
    "TVP.C79_after_gap_refuted",
    "TVP.C79_raw_refuted",
    "TVP.C79_wav_refuted"
   ],
   "note": "Own samples or silence, in time, if each read delivers its block or nothing. Refuted: a short read plays stale samples, and after a block that could not be read the sound does not return. Missing: loops, backwards, interpolation (that the position is right even then: C81)."
  },
  {
   "property": "C80",
   "status": "proved",
   "theorems": [
    "TVP.C80_alone",
    "TVP.C80_in_memory",
    "TVP.C80_one_call"
   ],
   "note": "Any number of polled players, raw and WAV, forward. Stopping and restarting players while others wait is the subject of C55 and C63."
  },
  {
   "property": "C81",
   "status": "proved",
   "theorems": [
    "TVP.C81_right_or_silent",
    "TVP.C81_same_place"
   ],
   "note": "All setters, late or missing event runs and failing reads. Reads that deliver less than asked for are the subject of C79; when running an event hangs or goes out of bounds, of C19 and C20."
  },
  {
   "property": "C82",
   "status": "partial",
   "theorems": [
    "TVP.C82_enable_partial",
    "TVP.C82_open_partial",
    "TVP.C82_back_raw_partial",
    "TVP.C82_back_wav_partial",
    "TVP.C82_loop_raw_partial",
    "TVP.C82_loop_wav_partial",
    "TVP.C82_loop_back_raw_partial",
    "TVP.C82_loop_back_wav_partial",
    "TVP.C82_ping_raw_partial",
    "TVP.C82_ping_wav_partial",
    "TVP.C82_refuted"
   ],
   "note": "Refuted for cubic interpolation in loops to and fro (reads a sample the plain player does not). Holds for linear interpolation everywhere, and for cubic backwards and in repeated loops, at up to normal speed, from whatever start and with whatever speed changes the plain player is like one in memory. Missing: the second head; cubic turning between two frames."
  },
  {
   "property": "C83",
   "status": "partial",
   "theorems": [
    "TVP.C83_partial",
    "TVP.C83_refuted",
    "TVP.C83_loops_partial",
    "TVP.C83_loops_refuted",
    "TVP.C83_to_and_fro_partial",
    "TVP.C83_to_and_fro_refuted"
   ],
   "note": "Any program of plays, stops, settings, updates and event runs from construction, any read results, forwards, one head, files within SafeWav (stated in Spec/Life.lean); with repeating turned on and off and loop ends moved at any time when the files are long enough for the loops and all buffers (Spec/Rounds.lean); with loops to and fro and repeated in turn, if the speed is set between the last update and the next file (Spec/ToFro.lean). Missing: speeds set backwards, two heads; outside these conditions it is false (C83_refuted, C83_loops_refuted, C83_to_and_fro_refuted)."
  },
  {
   "property": "C84",
   "status": "partial",
   "theorems": [
    "TVP.C84_back_partial",
    "TVP.C84_loop_partial",
    "TVP.C84_loop_back_partial",
    "TVP.C84_pingpong_partial",
    "TVP.C84_swing_partial",
    "TVP.loopPath_one",
    "TVP.C84_refuted",
    "TVP.C84_back_raw_partial",
    "TVP.C84_loop_raw_partial",
    "TVP.C84_loop_back_raw_partial",
    "TVP.C84_swing_raw_partial"
   ],
   "note": "Backwards, repeated forwards and backwards, and to and fro (C84_swing_partial; at normal speed C84_pingpong_partial) at every representable speed, for the loops and starts that stream (C18, C60, C71). The loops keep only the fraction of the position at the jump: at normal speed this is the position modulo the length (loopPath_one), at other speeds the overshoot is lost (C84_refuted). With interpolation: C86. Missing: cross-fades."
  },
  {
   "property": "C85",
   "status": "partial",
   "theorems": [
    "TVP.C85_cut_partial",
    "TVP.C85_stale_refuted",
    "TVP.C85_unknown_refuted",
    "TVP.C85_start_refuted"
   ],
   "note": "Every sample in the file is heard at its instant, playback lasts as long as the header says and ends by itself, for any cut, rate, start in the file and allocations, and blocks that begin behind the file's end are silent, on SD cards (where seeking past the end fails) as well (C85_cut_partial). Refuted: between the end of the file and the end of its last block one hears what the buffer happened to contain (C85_stale_refuted); a claimed length of 2^32-1 (unknown, as written to pipes) plays nothing at all (C85_unknown_refuted); started behind the end on SD, the samples at the beginning are heard there (C85_start_refuted)."
  },
  {
   "property": "C86",
   "status": "partial",
   "theorems": [
    "TVP.C86_cubic_partial",
    "TVP.C86_linear_partial",
    "TVP.C86_delay",
    "TVP.C86_loop_partial",
    "TVP.C86_loop_back_partial",
    "TVP.C86_back_partial",
    "TVP.C86_refuted"
   ],
   "note": "Proved for all speeds in (0,1], start frames, left-over states and allocation patterns, from the bytes of the file to the transmitted blocks; forwards, backwards and in repeated loops in both directions. Refuted: with linear interpolation the first instant is the value left over from the sound before, and the last frame of the file is never heard (the latency is cut off at the end). Missing: speeds above normal, to and fro, cross-fades."
  },
  {
   "property": "C87",
   "status": "partial",
   "theorems": [
    "TVP.C87_wav_partial",
    "TVP.C87_mono_partial",
    "TVP.C87_refuted"
   ],
   "note": "WAV files forwards, any history: the time of the samples in front, counting every channel and the header, within 2.2 ms; so right for mono, refuted for stereo (twice the time). Missing: loops, backwards, interpolation"
  },
  {
   "property": "C88",
   "status": "partial",
   "theorems": [
    "TVP.C88_raw_partial",
    "TVP.C88_wav_partial",
    "TVP.C88_raw_ahead_partial",
    "TVP.C88_wav_ahead_partial",
    "TVP.C88_refuted"
   ],
   "note": "In order and each block once, whatever the reads return; never N or more blocks ahead if the reads succeed. Refuted if a read fails: the buffers run away from what is played and blocks are read in vain. Missing: loops, backwards, interpolation."
  },
  {
   "property": "C89",
   "status": "partial",
   "theorems": [
    "TVP.C89_partial",
    "TVP.C89_smooth_partial",
    "TVP.C89_any_partial",
    "TVP.C89_streams_partial",
    "TVP.C89_speeds_partial",
    "TVP.C89_smooth_speeds_partial",
    "TVP.C89_refuted"
   ],
   "note": "Proved for WAV files: without interpolation at every speed and with linear or cubic interpolation up to normal speed, also while both speeds are changed by the same amounts. Where positions are rounded the rounding must treat both directions alike, as to nearest even does. Refuted from the end of a file that has bytes after the data chunk: they are heard first. Missing: interpolation above normal speed; with interpolation and rounded positions or changes of speed, the values held from the sounds before must be the same."
  },
  {
   "property": "C90",
   "status": "partial",
   "theorems": [
    "TVP.C90_partial",
    "TVP.C90_back_partial",
    "TVP.C90_any_partial",
    "TVP.C90_any_back_partial",
    "TVP.C90_smooth_partial",
    "TVP.C90_smooth_back_partial",
    "TVP.C90_refuted",
    "TVP.C90_pingpong_partial",
    "TVP.C90_pingpong_refuted",
    "TVP.C90_streams_partial",
    "TVP.C90_streams_back_partial",
    "TVP.C90_smooth_speeds_partial",
    "TVP.C90_smooth_speeds_back_partial"
   ],
   "note": "Proved for repeated loops forwards and backwards at every speed below normal, with any interpolation, also while the speed of both is changed, and for loops to and fro at normal speed from a whole frame. Refuted above normal speed and for loops to and fro at other speeds. Missing: the second head (crossfade); the values held from the sounds before must be the same when interpolation is used at changing speeds."
  },
  {
   "property": "C91",
   "status": "partial",
   "theorems": [
    "TVP.C91_forward_partial",
    "TVP.C91_back_partial",
    "TVP.C91_loop_partial",
    "TVP.C91_loop_back_partial",
    "TVP.C91_swing_partial",
    "TVP.C91_any_forward_partial",
    "TVP.C91_any_back_partial",
    "TVP.C91_any_loop_partial",
    "TVP.C91_any_loop_back_partial",
    "TVP.C91_refuted",
    "TVP.C91_again_refuted",
    "TVP.C91_streams_partial",
    "TVP.C91_smooth_forward_partial",
    "TVP.C91_speeds_back_partial",
    "TVP.C91_speeds_loop_partial",
    "TVP.C91_speeds_loop_back_partial",
    "TVP.C91_speeds_ping_partial",
    "TVP.C91_smooth_back_partial",
    "TVP.C91_smooth_loop_partial",
    "TVP.C91_smooth_loop_back_partial",
    "TVP.C91_smooth_ping_partial",
    "TVP.C91_linear_refuted"
   ],
   "note": "Proved for a player with one head and no header offset from an earlier file, forwards, backwards, repeated in both directions and to and fro: without interpolation at every speed, with interpolation up to normal speed, also while the speed is changed between updates. Refuted backwards from the end for WAV files with bytes after the data chunk, for a raw file played after a WAV file, and for linear interpolation above normal speed. Missing: two heads, quadratic interpolation above normal speed."
  },
  {
   "property": "C92",
   "status": "partial",
   "theorems": [
    "TVP.C92_wav_partial",
    "TVP.C92_raw_partial",
    "TVP.C92_back_partial",
    "TVP.C92_back_raw_partial",
    "TVP.C92_loop_partial",
    "TVP.C92_loop_raw_partial",
    "TVP.C92_loop_back_partial",
    "TVP.C92_loop_back_raw_partial",
    "TVP.C92_refuted",
    "TVP.C92_loop_refuted"
   ],
   "note": "Proved without interpolation, WAV and raw files, forwards and backwards: to the end at any rate, and in repeated loops at rates below 1. Refuted exactly: at the double next to one tenth frame 1 is due at instant 10 and heard at instant 11. Refuted for loops above normal speed: what lies beyond the end of the loop is lost, so a loop of three frames at double speed sends 0, 2, 0, 2. Missing: loops to and fro, interpolation."
  },
  {
   "property": "C93",
   "status": "partial",
   "theorems": [
    "TVP.C93_streams_partial",
    "TVP.C93_loop_streams_partial",
    "TVP.C93_back_streams_partial",
    "TVP.C93_wav_partial",
    "TVP.C93_loop_partial",
    "TVP.C93_smooth_loop_partial",
    "TVP.C93_back_partial",
    "TVP.C93_smooth_back_partial",
    "TVP.C93_refuted"
   ],
   "note": "Proved: forwards to the end and in a repeated loop, and backwards to the beginning, while the speed changes, with any interpolation up to normal speed. Refuted backwards in a repeated loop, where the number of channels changes the length of the loop. Missing: loops back and forth, the second head, interpolation above normal speed."
  },
  {
   "property": "C94",
   "status": "partial",
   "theorems": [
    "TVP.C94_streams_partial",
    "TVP.C94_wav_partial",
    "TVP.C94_loop_partial",
    "TVP.C94_smooth_loop_partial",
    "TVP.C94_loop_back_partial",
    "TVP.C94_smooth_loop_back_partial",
    "TVP.C94_ping_partial",
    "TVP.C94_smooth_ping_partial",
    "TVP.C94_refuted"
   ],
   "note": "Forwards to the end with any interpolation, round and round forwards and backwards and to and fro with and without interpolation, while the speed is changed; refuted backwards without a loop. Missing: the second head, linear interpolation above normal speed, cubic interpolation to and fro."
  },
  {
   "property": "C95",
   "status": "partial",
   "theorems": [
    "TVP.C95_silence",
    "TVP.C95_no_louder_partial",
    "TVP.C95_new_partial",
    "TVP.C95_reads_partial",
    "TVP.C95_streams_partial",
    "TVP.C95_anything_partial",
    "TVP.C95_wav_partial",
    "TVP.C95_heads_partial",
    "TVP.C95_heads_raw_partial",
    "TVP.C95_cubic_refuted",
    "TVP.C95_silence_refuted"
   ],
   "note": "Silence stays silent whatever is called; with no or linear interpolation nothing is louder than the sound: one head with any calls, for arrays, raw files and WAV files played forwards; two heads fading at forward speeds or to and fro, for arrays and raw files. Refuted with cubic interpolation and for what is remembered of the sound before. Missing: changes of direction or loop with two heads (see C34_refuted_flip), WAV files backwards, in loops and with two heads."
  },
  {
   "property": "C96",
   "status": "partial",
   "theorems": [
    "TVP.C96_inverse_partial",
    "TVP.C96_cubic_partial",
    "TVP.C96_defined_partial",
    "TVP.C96_heads_defined_partial",
    "TVP.C96_raw_partial",
    "TVP.C96_heads_raw_partial",
    "TVP.C96_streams_partial",
    "TVP.C96_wav_partial",
    "TVP.C96_wav_cubic_partial",
    "TVP.C96_wav_loop_partial",
    "TVP.C96_wav_smooth_loop_partial",
    "TVP.C96_wav_loop_back_partial",
    "TVP.C96_cubic_refuted"
   ],
   "note": "Proved for players from memory with any calls and settings (cubic interpolation up to clipping, refuted without), for raw files wherever they are played as from memory (loops, backwards, two heads), and for WAV files played to the end, in loops without or with linear interpolation, or in loops backwards without interpolation; for files, and from memory without -32768 with one head or two, both runs are well-defined. Missing: that the second run from memory is well-defined with cubic interpolation, and WAV files backwards with interpolation or in loops with cubic interpolation."
  }
 ]
}