# Formal model of swift-nav/gnss-converters (C/C++) in Lean 4

Contents: 1 trusted base - 2 layout - 3 what is modelled, what is not, and the assumptions - 4 plan per property - 5 defects found.

## 1. Trusted base

* **Lean 4.33.0's kernel**, and at most the three standard axioms `propext`, `Classical.choice`, `Quot.sound`. No axiom is
  added; no proof rests on compiled code. `lean/Verif/Axioms.lean` prints the axioms of every property theorem at build time.
  `decide +kernel` is used for closed facts only (complete finite tables, concrete witnesses): the kernel evaluates them.
* **My reading of the C/C++ source.** The code is never run here. Every definition in `lean/Verif/Model/*` cites the file
  and lines it models (relative to `/repo/c`). `scripts/coverage.py` lists the functions of `/repo/c` that no citation covers.
* **The assumptions about code outside the repository** in section 3.3. They are parameters of the theorems, or
  hypotheses with a name, or modelled behaviour listed there; nothing is an axiom.
* **The specifications** `lean/Verif/Spec/*` and the statements in `lean/Verif/Props/*`, which are meant to be read.

## 2. Layout

* `lean/Verif/Model/*.lean`  the model, function by function, with citations and remarks where it simplifies.
* `lean/Verif/Spec/*.lean`   small specifications, written from the English property and the public standards, not from the model.
* `lean/Verif/Lemmas/*.lean` helper lemmas; nothing in there needs to be read to understand a statement.
* `lean/Verif/Props/*.lean`  the property theorems, with concrete non-trivial cases that meet their hypotheses beside them.
  A name starts with the property id (`C05_...`). `_partial`: part of the property, the note in `MANIFEST.json` says
  what is missing. `_bug`: a theorem that exhibits a defect of the code, i.e. that the missing part is false of the code.
* `seeded/LOG.jsonl` every wrong program tried against the theorems (`scripts/mutate.py`), `scripts/gen.py` generates
  `Verif.lean`, `Axioms.lean` and `MANIFEST.json` from the theorem names and `scripts/partial.json`.

## 3. What is modelled

### 3.1 Modelled

| code | model |
|---|---|
| `librtcm`: bits.c, encode.c, decode.c, eph_encode.c/eph_decode.c, ssr_decode.c, msm_utils.c, lock times, sta_decode.c | Bits, Codec, Station, Eph, LegacyObs, Msm, MsmUtils, LockTime, Ssr, Sta |
| `gnss_converters`: rtcm3_sbp.c, rtcm3_sbp_ssr.c, rtcm3_sbp_ephemeris.c, rtcm3_utils.c, time_truth.c | RtcmFraming, RtcmSbp, RtcmMisc, SsrSbp, EphSbp, EphStream, ObsStream, Accuracy, GpsTime, TimeTruth |
| `gnss_converters_extra`: sbp_rtcm3.c, sbp_conv.c | SbpRtcm, SbpConv, RtcmMisc, EphSbp, EphStream, ObsStream, RtcmFraming |
| `rtcm3tosbp`: rtcm3tosbp.c (without option parsing) | Rtcm3ToSbp |
| `sbp2rtcm`: sbp2rtcm.c | Sbp2Rtcm |
| assertions and array bounds of the observation path of rtcm3tosbp | Guard |
| main loops of `ubx2sbp`, `ixcom2sbp` | Programs |
| command line of `rtcm3tosbp`, options.c | Options |
| `gnss_converters`: sbp_nmea.c, nmea.c | NmeaFmt, Nmea |
| `libubx`, ubx_sbp.c, ubx_ephemeris/*, ephemeris/* | Ubx, UbxMsg, UbxEph, UbxSbp |
| `libixcom`, ixcom_sbp.c | Ixcom |
| `nov2sbp` parser and converter | Nov, NovSbp |

### 3.2 Not modelled

* The `main` functions (but those of rtcm3tosbp and sbp2rtcm), command-line options, usage texts, the fuzzing drivers in `afl/`, the unit tests and the logging of librtcm.
* Memory allocation failure; the return values of output callbacks (a send always succeeds); signals.
* Heap and stack layout. A C array write is a functional update. Out-of-bounds accesses and other undefined behaviour are
  not silently totalised: a theorem proves that indices are in range, or the model has a distinct undefined outcome
  (`none`, `outOfBounds`, ...) that soundness theorems exclude and completeness theorems rule out, or the hypothesis
  "the buffer is large enough" is explicit. A conversion of a float to an integer type that cannot hold it is such an outcome.
* Assertions are enabled: a failing `assert` ends the run (in the NovAtel program messages sent by the log in progress
  before the assertion are not counted).
* The numerical content of libswiftnav's decoders of GPS/Galileo/GLONASS/BeiDou pages received by a u-blox receiver (C40
  proves which pages go into them).

### 3.3 Assumptions

**Arithmetic.** Integers have their C width wherever wrap-around is possible. `char` is 8 bits, the host is little endian,
`int` is 32 bits, enum casts of values outside an enum keep the value. Floating point is modelled in two ways:
  * IEEE-754 binary32/binary64 with round-to-nearest-even, subnormals and exact decimal-to-binary constants (`Model/Float`:
    `f32`, `f64`), with infinities and NaN where an input can carry them (`Fl` in the UBX, IXCOM and NovAtel models): ephemerides
    (C30, C50), NMEA (C31-C36), UBX (C41-C44, C52-C56), IXCOM (C57), NovAtel (C60-C63). No FMA contraction, no extended
    precision. printf prints the exactly rounded decimal.
    The observation paths of both converters, the MSM and legacy observation codecs and the station messages (C06-C09, C11, C13, C29, C49, C51, C64, C65, C72, C74, C77, C78) round every inexact operation too.
  * exact rationals elsewhere: lock times (C16) and SSR values. Signs of zero, NaN and rounding errors below
    the stated resolutions are not claimed there.

**libswiftnav, libsbp, libc (sources not in the tree; `third_party` is empty).**
  * `swiftnav_bitstream_t`: a view of the unread bits of a payload; a read of n bits fails iff fewer than n are left, otherwise
    gives the next n bits most significant first. `swiftnav_bytestream_t`: the same over little-endian bytes.
  * `bitshl` and `crc24q_bits` work on the bits of a buffer most significant first; `crc24q` is any function from bytes to 24 bits.
  * FIFO: `fifo_write` stores what fits, `fifo_peek`/`fifo_read` return the oldest bytes, `fifo_remove` drops them.
  * `gpsdifftime(a,b)` is a - b; `gps_time_valid`; `gps_adjust_week_cycle` adds multiples of 1024 weeks to reach the reference;
    `normalize_gps_time` moves whole weeks; `gps_time_match_weeks_safe` as stated in `Spec/UbxImu.SaneTime`
    (keeps the time of week, never more than half a week away, found whenever there is such a week).
  * `get_gps_utc_offset`, `code_to_constellation`, first satellite number and satellite count per constellation (`PrnTable.WF`: positive,
    fit the masks), carrier frequencies, `constellation_to_l1_code`, `sid_valid`, `encode_lock_time`, `days_in_month`, `get_geoid_offset`,
    `sbp_message_decode`: parameters (`Env`, `Lib`, `SbpLib`, `EphLib`).
  * `log2f` exact at powers of two (`LibOk`), `FLOAT_EQUALITY_EPS` in (0, 1/10], the BeiDou URA table as in the ICD, `C_1_2Pn` =
    2^-n exactly, `M_PI` the double nearest to pi.
  * `atan2` in degrees within +-181 (`CourseBounded`), speeds and geoid bounded (`SaneLib`), cos and sin accurate to 1e-14
    (`SaneTrig`), sqrt to 2^-52 (`SaneSqrt`): hypotheses of the theorems that need them.
  * libsbp constants: 14 observations per MSG_OBS, 255-byte payloads, u8 `iod` in SSR orbit/clock, ephemeris field types
    (float/double) as in libsbp 4; array maxima that matter are parameters.
**Concurrency** (C24): sequentially consistent atomics, one interleaving step per atomic access.
**I/O**: a read delivers any non-empty prefix of what is left until the end of the stream (the length of every read is
  universally quantified); what happens for reads of zero bytes in mid-stream is stated separately (C37_stalled_read_bug).

## 4. Plan per property

Each line: what is modelled, how it is proved. All theorems are for inputs, histories and schedules of unbounded size.

* **C01** Reader `rtcm2sbp_process` as a state machine over the FIFO; refinement to a pure scanner of the whole stream: scan(a++b) = scan(a) then scan(left(a)++b); induction on the reads.
* **C02** Specification: frame predicate (preamble, length, CRC) and ordered disjoint occurrences; soundness by induction on the scanner, completeness for concatenated frames.
* **C03** Invariant on the FIFO length by induction over reads.
* **C04** Byte-level model of the frame writer; the reader's scanner accepts its output; 1018..1023-byte payloads overrun the buffer (witness).
* **C05** Byte-level bits.c against a bit-list view; induction on widths.
* **C06-C09** Encoders as lists of bit writes, decoders as bit parsers, one generic lemma "writes then reads"; strings and payloads by induction.
* **C10** The same per ephemeris type; field swaps in the code are shown by witnesses and excluded by the partial theorems.
* **C11** The same with a satellite loop. **C12, C13** masks as Bool lists, cells as lists; multi-pass encoding proved equal to one layout.
* **C14** From parser semantics: type mismatch and truncation for every decoder; exceptions of the code as witnesses. **C15** range checks of the header parsers.
* **C16** Piecewise tables over rationals and integers; case split and linear arithmetic. **C17, C18** complete tables, lifted from the kernel-checked finite part. **C19** induction over masks and insertion histories.
* **C20** Send loop: induction on the number of observations. **C21** Ghost history of offered observations; invariant over all message histories.
* **C22, C23** Integer milliseconds; omega. **C24** Small-step interleaving semantics with any number of threads; invariant over schedules.
* **C25, C48** The whole dispatch as a function; complete case analysis, histories by induction.
* **C26, C27** Cache, pairing and splitting loops of SSR; trace specification, induction.
* **C28** State machine over SBP observation messages with ghost history. **C29, C49** Emission loops of MSM and legacy messages against a specification "exactly the epoch's satellites".
* **C30** IEEE model of the accuracy conversions; every index, and nearest-index by interval case split.
* **C31** printf-like formatting on lists of characters; every sentence of every run is an envelope with the xor checksum. **C32, C33** degree/minute split and UTC carry against arithmetic specifications. **C34** loops over satellites. **C35** scheduler state machine with ghost history. **C36** heading, course and indicator fields, all inputs.
* **C37, C45** Reader state machine refined to a scanner of the stream, any read sizes. **C38** algebra of the Fletcher sums mod 256.
* **C39** Codec lemma over little-endian fields for all 13 message types. **C40** Stores of subframes with ghost history: what is decoded is the latest part of each number and of one issue of data.
* **C41, C42** Chunk loop and fixed-point packing, IEEE doubles. **C43** IMU groups, clock and cadence: specification functions over the whole history. **C44** odometry/wheel ticks with fixed-width counters.
* **C46, C57, C58** IXCOM times and values over the whole run. CRC: table = polynomial remainder (Spec/Crc), linearity, burst detection.
* **C47** NovAtel parser: circular buffer as a list; soundness by Occur, completeness for logs followed by 4096 bytes. **C59** whole program over the stream; **C60-C63** each kind of log: value predicates (`SaysPos`, ...) with error bounds from IEEE rounding.
* **C50** RTCM ephemeris to SBP and back with IEEE float/double rounding: the integer fields survive. **C51** Observation values: composition of decoder, offered observation and SBP packing.
* **C52-C56** Converter `ubx_sbp.c` message by message as a step function on the state; ghost history; specifications `Says...`. C56 composes with C37 and C40 to the byte stream.
* **C55** GNSS offset state machine: invariant that the last observation and IMU times are those of the history.
* **C64** Base station position: sbp2rtcm's 1006/1008/1033 frames through the reader and decoders back to SBP; composition of C02, C04, C06, C07.
* **C65** GLONASS biases: 1230 and 1033 conversions, the 120 s precedence of 1230 over histories.
* **C66** Text messages 1029 <-> SBP log, truncation. **C67** Swift-proprietary wrapping (4062) of OSR/SSR messages, byte-exact.
* **C68** Navigation data frames (4075): raw-pointer decoder over the payload bits; SBAS frames handed on.
* **C69** STA message 999 decoders. **C70** `sbp_conv`: byte stream over any history of calls, FIFO of 2048 bytes.
* **C71** Ephemerides end to end: the callbacks, encoders, framing, decoders and conversions composed; value specification `EvOk`/`Same` with bounds of half a unit of the RTCM field.
* **C72** Observations end to end: `epochPayloads` (Model/ObsStream) over SbpRtcm, Msm, framing and RtcmSbp composed; exactness because the rounding errors of both conversions and of the MSM fine fields together stay below half a unit of the SBP field; induction over the constellations of an epoch and over the events of the stream.
* **C73** The program rtcm3tosbp (Model/Rtcm3ToSbp): start, callback and both time sources around the converter; refinement relation `Rel` between its state and the clock and channels of the specification (`clockAfter`, `channelsAfter`), induction over the events.
* **C74** Both programs (Model/Sbp2Rtcm; `fullMain` of Model/Rtcm3ToSbp): the sender is idle between items (`Idle`), each item is shown to be sent, received and converted (C28, C64 to C67, C71 to C73), induction over the items.
* **C75** The observation path again with every assertion and array access checked (Model/Guard, `none` = failed): an invariant of the converter (buffer at most 210, tables of their sizes, times of observation messages legal; `Inv`, `PInv`) is kept by every step and implies every check, so the checked program equals the unchecked one (`Fine`); induction over the payloads.
* **C76** The do-while loops as inductive relations `Ends`/`Fails` (Model/Programs) over the calls of C56 and C45. An empty read or error behind the data does not change what a call returns for the data before it (`SameTo`), so the loop is an induction over the frames of the rest of the stream; `ends_unique` makes the result a function.
* **C77** getopt as a function from words to (letter, argument) pairs, the options as a fold over them (Model/Options); the specification is the inductive notation `Line` of the settings a user asks for. Induction over `Line`; the last-value-wins part by `lastFor` over appended lists. Disabled constellations from C21_no_fabrication.
* **C78** the composition bufferToLegacy → Obs.encode → framing → Obs.decode → RtcmSbp.step (Lemmas/LegacyStream: what the sender's loop collects; LegacySat: one satellite there and back, in rounded arithmetic; LegacyRecv: one message at the receiver). Induction over the events with the receiver invariant `Ready`.
* **C79** Model/NmeaMath: the formulas for speed, course and error ellipse with every float and double operation rounded, libm as parameters with the accuracy stated in Spec/NmeaMath (`Accurate`). Real analysis in Lemmas/Ellipse (greatest and least variance over all directions, the variance in the direction arctan (b/u)), error bounds in Lemmas/NmeaGst and NmeaSpeed, monotone rounding in Lemmas/FloatMono.
* **C80** Model/ConvNav: `sbp_conv` with all callbacks (Model/SbpConv for switch and FIFO, Model/Sbp2Rtcm for the callbacks), feeding `fullMain` of Model/Rtcm3ToSbp. The sender is idle between items (C74) with antenna settings known, each position gives 1006, 1008 and 1033; the receiver never saw a 1230 (invariant `Free`); C70_stream_partial gives the bytes. The full epoch is evaluated in the kernel.
* **C81** `sendGga` and `sendPubx` of Model/Nmea with the formulas of Model/NmeaMath (as in C79). The comma separated fields are computed, each printed number is compared with the number it stands for; half-tenth bound of the DOPs over all 65536 values by error analysis of the two roundings. GGA and PUBX without a fix are in C32, indicators in C36.
* **C82** Decoders and encoders of Model/Eph and Model/Station. Lemmas/Relay.lean inverts a successful decoder field by field (range of the value, bits consumed = bits an encoder writes for it); the encoder is then applied to the decoded message. Floating-point members: `round(f64(f64(k/10000)*10000)) = k` and the same for 2 cm steps, by error analysis. Byte-for-byte statements for the layouts made of whole bytes.
* **C83** Model/Msm. An accepted payload determines raw codes with known ranges (`RawOk`); the encoder's floor/round/compare is shown to find exactly these codes again from the decoded doubles (fine parts are exact dyadic sums; the Doppler code by error analysis of four roundings), the invalid code for every invalid value, and the second decoding is then equal field by field.

No property was found inexpressible; parts that are false of the code are in section 5.

## 5. Defects found

Every entry is a theorem about the model (suffix `_bug`); the notes of `MANIFEST.json`, repeated here, put it in words.
Regenerate with `scripts/findings.py`.

* **C02**  Witnesses: `C02_decode_frame_short_bug`.
* **C04** The framing is proved for payloads of 1..1017 bytes; C04_frame_buffer_overflow_bug shows that a 1018..1023-byte payload overruns the frame buffer.
* **C05** rtcm_getbits with len=32 on a negative value is a signed overflow in C (C05_getbits_overflow_bug).
* **C09** The encoder loses the bias indicator (C09_bias_indicator_bug), so the full round trip is false of the code; everything else in the message is proved to survive.
* **C10** Full round trip holds for 1020, 1042 and the 1044 layout (decode only: there is no 1044 encoder). For 1019 decoded toe/toc come back exchanged (C10_1019_toe_toc_bug), so the round trip holds iff toe = toc; for 1045/1046 it holds iff the top health bit is clear (C10_1045_health_bug, C10_1046_health_bug).
* **C11** Proved for up to 31 carried satellites; with 32 the satellite count wraps to 0 (C11_32_sats_lost_bug). Every double operation rounds as in IEEE-754 (bounds widened by a micrometre). The phase must be within 1000 km of the pseudorange because the code keeps the difference in an int32_t before rolling it over (C11_phase_wrap_bug). Further code bugs: the invalid-pseudorange pattern is never recognised, the L2 phase of 1012 ignores an unknown channel, an invalid CNR is transmitted as valid; the code indicators are always transmitted as 0, so P-code observations come back as C/A (C11_code_indicator_bug); the round trip assumes CNR 0 when it is flagged invalid. Witnesses: `C11_32_sats_lost_bug`, `C11_phase_wrap_bug`, `C11_invalid_pr_ignored_bug`, `C11_unknown_channel_l2_bug`, `C11_invalid_cnr_bug`, `C11_code_indicator_bug`.
* **C12** Masks with more than 64 cells or more than 32 satellites overrun the decoder's arrays (C12_too_many_sats_bug, C12_cell_mask_overflow_bug); the round trip is proved for every message within those limits.
* **C13** Double operations round as in IEEE-754 (range rates and the fine fields); C13_doubles shows that everything else decoded is exact. A satellite whose rough range rounds up to a whole light-millisecond past the millisecond count is encoded one millisecond short (C13_rough_range_bug); the round trip hypothesis excludes exactly that case.
* **C14** Full for station messages, ephemerides, legacy and MSM observations, SSR orbit and biases. False of the code for 1006 (C14_1006_truncated_bug), SSR clock and combined messages (C14_ssr_clock_truncated_bug, C14_orbit_as_orbit_clock_bug) and the error code of Galileo (C14_galileo_code_bug). The proprietary 999/4075 decoders work on raw pointers without a length and are not covered.
* **C19** An unsupported signal code indexes one past the signal mask (C19_unsupported_code_bug); all other claims hold.
* **C21** Two clauses are false of the code: an older GLONASS epoch is sent after a newer GPS epoch (C21_order_bug; strict order is proved for streams without GLONASS legacy/MSM messages) and epochs of different weeks with the same time of week are merged (C21_week_mix_bug). Boundedness, no fabrication, no loss and dropping of stale messages hold for every history.
* **C23**  Witnesses: `C23_glo_tow_unknown_leap_bug`.
* **C24** C24_week_rounding_bug shows that the float comparison lets the published time step back by less than 1/32 s; the statement allows exactly that.
* **C25** An MSM1-3 message with a cleared multiple-message bit makes the converter send an empty observation message even without time (C25_empty_obs_bug); the theorem says such messages carry no observation.
* **C26** Proved: messages are paired exactly when they are successive messages of one constellation with equal epoch and IOD SSR, and every output combines the fields of its own corrections. False of the code: provider, solution and update interval are not compared (C26_provider_bug); satellites are lost when there are more clock than orbit corrections (C26_dropped_bug); an uninitialised cache is used (C26_uninitialised_bug); a BeiDou epoch beyond a week is accepted (C26_bds_epoch_bug); 10-bit Galileo issues are cut to 8 bits (C26_galileo_iod_bug).
* **C28** Boundedness, no mixing of times, conservation and completeness are proved for every history in which one sender's well-formed messages arrive. False of the code: observations of a second sender are mixed in (C28_sender_mix_bug), a header announcing zero messages (C28_zero_size_bug) and a truncated payload (C28_short_payload_bug) break the assembly. The int overflow of the week difference times seconds per week is not modelled.
* **C29** Proved for every epoch the messages can carry. False of the code: SBAS observations and illegal satellite numbers abort (C29_sbas_bug, C29_invalid_sat_bug), duplicates abort (C29_duplicate_bug), and more than 64 cells corrupt other cells (C29_overwrite_bug).
* **C30** Every index of all four systems survives the conversion to metres and back in IEEE float arithmetic (assuming log2f exact at powers of two), SISA conversion is to the nearest index, GPS fit intervals are those of IS-GPS-200 and the flag survives. False of the code: GPS accuracies between table values are rounded to a smaller accuracy (C30_understates_bug); accuracies from 16384 m overflow the 4-bit index (C30_index_overflow_bug); GLONASS P1 = 3 comes back as 0 (same interval).
* **C31** C31_wellformed and C31_complete cover every sentence of every run (PUBX content completeness excepted). C31_pubx_partial: PUBX keeps the well-formed envelope, but C31_pubx_truncated_bug shows a run whose PUBX loses its last field because the 120-byte buffer is too small.
* **C32** C32_nan_bug shows that a NaN coordinate aborts the program; the theorems cover all finite coordinates.
* **C33** C33_leap_event_bug shows a leap second rounded up when none is announced; the theorems state the carry exactly.
* **C34** GSA and GSV list every satellite of their talker with the number, elevation, azimuth and C/N0 asked for, in order and complete; missing: GSA drops the 13th and later satellites of a constellation (C34_gsa_thirteenth_bug) and QZSS satellites are numbered outside the NMEA range (C34_qzss_number_bug).
* **C35** proved for every history: GNSS sentences are coherent (C35_coherent), made from the latest messages at the requested rate (C35_content), at most once per epoch while the source stays the same and its UTC times do not go back (C35_once, C35_once_per_call), and sent whenever due (C35_complete); the claim fails on the fused path (C35_fused_incoherent_bug: nothing but the UTC time is checked), across the switch of source (C35_mode_switch_repeat_bug), for a requested fused mode (C35_fused_mode_bug) and for a first epoch at time of week 0. Witnesses: `C35_period_zero_bug`, `C35_first_epoch_zero_bug`, `C35_fused_incoherent_bug`, `C35_mode_switch_repeat_bug`, `C35_fused_mode_bug`.
* **C36** C36_ths (all 32-bit yaws) and the course and indicator fields are full; HDT is in [0,360) up to 359.994 degrees (C36_hdt_partial) and prints 360.00 above (C36_hdt_360_bug); an unassigned solution mode 7 aborts (C36_undefined_mode_bug).
* **C37** C37_stalled_read_bug: a read of zero bytes in the middle of a frame loses the bytes already consumed (the theorem requires that the stream delivers at least one byte per read until its end); C37_resync_bug: a corrupted length swallows the following frame.
* **C39** All 13 message types of libubx. C39_encode_overrun_bug: the RXM-SFRBX encoder does not check the number of words (the decoder does).
* **C40** soundness (latest part of each number, one issue of data, never reused, content decoded from exactly those words) and completeness (one round for Galileo, BeiDou, GLONASS; two for GPS) proved for every history; the libswiftnav ephemeris decoders are parameters. Negative theorems: GLONASS string 0 is undefined behaviour, Galileo pages of 8 words are ignored, Galileo word type 5 (which has no issue of data) may be arbitrarily old, SBAS time wraps in the first 1.12 s of a week. Witnesses: `C40_glo_string_zero_bug`, `C40_gal_eight_words_bug`, `C40_gal_stale_bug`, `C40_sbas_week_start_bug`.
* **C41** C41_lossless, C41_framed and C41_defined with IEEE double arithmetic; encode_lock_time is a parameter. Negative theorems: time 604800000 ms at the end of a week, a phase that does not fit is left indeterminate yet flagged valid, out-of-range pseudoranges are undefined behaviour, more than 210 measurements break the sequence byte. Witnesses: `C41_week_end_bug`, `C41_indeterminate_bug`, `C41_undefined_bug`, `C41_over_210_bug`.
* **C42** Proved for every value below the greatest integer of the field; above it the carry wraps the Doppler (and overflows for the phase): C42_carry_bug.
* **C44** messages, counts, times (at most one unit early) and definedness are proved for every history; the count of a wheel is proved to be its distance for one wheel and no wrap of its 22-bit counter (and verbatim while never in reverse). Negative theorems: 22-bit wraps, several wheels in reverse, and the wrap of the 32-bit millisecond counter break it; times may be 1 ms early. libswiftnav time functions assumed as documented (SaneTime). Witnesses: `C44_wrap_bug`, `C44_wheels_bug`, `C44_counter_wrap_bug`, `C44_early_bug`.
* **C45** proved for streams whose frames are longer than the header, shorter than 4096 bytes and, for the two converted types, have the length of the type (Cut, Proper), and whose values can be converted (Sane; see C57); chunk independence is proved without the last two. False of the code otherwise: length fields below 16 or from 4096 make it read outside its buffer or abort, 16 stops it for ever, and a frame of a wrong length is checked against the CRC field of an older frame (C45_*_bug). Witnesses: `C45_short_length_bug`, `C45_long_length_bug`, `C45_stuck_bug`, `C45_length_bug`.
* **C47** completeness holds for logs followed by at least 4096 more bytes of the file, of less than 4096 bytes and with a body of the length of its type. The rest is false of the code: C47_tail_bug (the last 4096 bytes are given up at the end of the file), C47_length_bug and C47_empty_bug (assertion failures), C47_full_bug, C47_split_bug.
* **C49** Proved for every epoch with at most 32 satellites per constellation, at most one first-frequency observation per satellite and GLONASS numbers within the table; C49_33_sats_bug and C49_glo_sat_bug show that the code leaves its arrays otherwise.
* **C50** GPS and Galileo ephemerides are carried exactly into SBP and back (GPS weeks are replaced by the rover's resolved week; the L2 code/data fields have no SBP counterpart; the 1019 toe/toc swap is C10's). False of the code: QZSS with IODC >= 256 is flagged by the wrong bits (C50_qzss_valid_bug), BeiDou toe or toc at the week start comes back as the end of the previous week (C50_bds_week_start_bug), GLONASS t_b = 0 does not survive (C50_glo_midnight_bug); BeiDou and GLONASS round trips are proved outside those points.
* **C51** C51_values covers every payload, composed with the decoders of C11/C12 and the offered observations of C21; every double operation of the conversion rounds as in IEEE-754 (bounds widened by 1 micrometre and 4e-6 cycles); so do the decoders. For any payload at all only a negative pseudorange and, in MSM messages, 63.875 dB-Hz or a Doppler beyond 32768 Hz can fail to fit (C51_fits, C51_legacy_fits, C51_any). C51_cn0_overflow_bug: 63.94 dB-Hz does not fit the SBP field, hence InRange; C51_doppler_overflow_bug: nor does a Doppler beyond 32768 Hz (MSM5 and MSM7 can express 43 kHz on L1), hence Carries.fits needs InRange.dop.
* **C52** position, attitude, high-rate selection and velocity are proved for every history, for angles within +-2147.48364 degrees (beyond, the int32 field of SBP cannot hold them). False of the code: the velocity accuracy is neither scaled to mm/s nor saturated (C52_accuracy_bug) and the static solution state is shared by all converters (C52_shared_bug).
* **C53** everything but signal strengths of 64 dB-Hz and more, which wrap (C53_cn0_bug).
* **C55** within 49 days of start-up (ImuNormal); after the wrap of the 32-bit counter the offset is wrong (C55_wrap_bug). gps_time_match_weeks_safe and normalize_gps_time_safe of libswiftnav are parameters with the assumptions SaneTime.
* **C57** for streams as in C45. A NaN and a speed beyond the int32 range are undefined behaviour in the code (C57_nan_bug, C57_speed_bug). Float rounding is modelled exactly; pi is Real.pi in the statement.
* **C60** totality of the position conversion is proved for standard deviations of at most 65 m (the rest is false: C60_accuracy_bug, undefined conversion); velocities up to 1000 km/s, angles up to 10000 degrees; NaN is undefined behaviour (C60_nan_bug). The flags of a velocity are right unless the last position is whole weeks old (C60_week_bug). Geoid separation and libm functions are parameters; cos and sin are assumed accurate to 1e-14.
* **C61** 1 to 63 records. False otherwise: an empty log is undefined behaviour (C61_empty_bug), records past 63 are dropped (C61_many_bug). The flags are not what the tracking status means: C61_phase_bug, C61_half_bug; GLONASS observations are dropped (C61_glonass_bug). The lock time encoding and sid_valid are parameters.
* **C62** the acceleration of types 41, 61, 62 is a million times too large (C62_milligee_bug); IMU_AUX ignores the week and stops after a week rollover (C62_aux_bug); an IMU error flag stops the program (C62_error_bug).
* **C63** totality for satellite numbers up to 255, weeks up to 65535 and times in [0, 2^32): otherwise the program stops (C63_abort_bug). sqrt is a parameter, assumed accurate to 2^-52.
* **C64** a 1006 message truncated to 7, 8, 12, 13, 17 or 18 bytes is converted from uninitialised memory (C64_1006_short_bug); senders that differ in bit 7 collide (C64_sender_collision_bug).
* **C65** the receiver descriptor of a 1033 message is not terminated and is searched past its end (C65_1033_bug); the theorem assumes that a zero byte follows in memory.
* **C66** a text is cut inside a character of three or four bytes (C66_cut_bug); the sender of the warning is wrong (C66_warning_sender_bug).
* **C68** the decoder is not given the length and reads memory behind a message that announces more than it holds (C68_overread_bug); the last word of a 250-bit SBAS frame is right-aligned and its bits come out in the wrong place (C68_250_bug).
* **C69** the RF status decoder accepts no message at all (C69_rfstatus_bug); a firmware text as long as the caller's array is terminated behind it (C69_fwver_bug). The configuration decoder is proved in full (C69_rcc).
* **C70** when bytes are not fetched in time a frame is cut and its rest lost (C70_overflow_bug); GLONASS biases have no case (C70_other); observations and ephemerides are in C80. The FIFO of libswiftnav is assumed to be a queue that drops what has no room.
* **C71** GPS only with toe = toc (else they come back exchanged: C71_gps_exchanged_bug); BeiDou not in the first 14 s of a week (C50_bds_week_start_bug), not geostationary, and both times in one week (C71_bds_week_bug); GLONASS not in the first interval of the day (C50_glo_midnight_bug) and only with a solved time; Galileo health without its top bit (C10_1045/1046_health_bug), and an unknown source is an assertion failure (C71_gal_source_bug).
* **C72** MSM4 and MSM5 with legacy messages off; each phase within 800 m of its pseudorange (else it is dropped: C72_far_phase_bug), observations of a satellite within 140 m and 1.1 m/s of each other, the receiver's time within half a week (GLONASS: half a day, and within 30 s of the leap second offset unless the epoch has GPS observations), not tow 0 (C72_week_start_bug), not only QZSS (C72_qzss_bug); every double operation of both converters and of the MSM codec rounds as in IEEE-754, the carrier frequency is any number of at least 1 Hz.
* **C73** the events must satisfy the conditions of C71 and C72 relative to the program's clock at that point; without a start time the default mode never learns the time (C73_no_time_bug); -o with a time before the reference week runs with an invalid clock (C73_old_week_bug); with -o GLONASS epochs a minute apart are lost (C73_glonass_minute_bug). Events with an observation or GPS ephemeris message wrapped in 4062 (it sets the clock) are left out. The command line is in C77; the SBP writer is not modelled; messages other than observations and ephemerides are in C74.
* **C74** the items must satisfy `Fits`: the conditions of C71 to C73, epochs complete and not interleaved with other messages, values within their fields. sbp2rtcm never learns a GLONASS channel, so GLONASS phases and Dopplers are always lost (C74_glonass_phase_bug); it has no callback for QZSS ephemerides. Items with an observation or GPS ephemeris message wrapped in 4062, which sets the clock of rtcm3tosbp, are left out (sbp2rtcm wraps none). The SBP reader and writer (libsbp) are not modelled.
* **C75** an MSM message that announces more than 32 satellites or 64 cells overflows the arrays of librtcm (C75_masks_bug); with -o a wrapped SBP observation message sets the clock to any value and the next observation message fails an assertion (C75_wrapped_clock_bug), as does a start time before the reference week (C75_old_week_bug). Conversions of floating point numbers to integer types too small for them are in C51 (Carries.fits, C51_doppler_overflow_bug), the arrays of the other messages in C03, C08, C14, C64 to C66; arrays of size 0 (a message without satellites or cells, decode.c:1220-1246) are not modelled.
* **C76** an empty read ends ubx2sbp although more arrives (C76_ubx_pause_bug), a frame that is only a header ends ixcom2sbp (C76_ixcom_early_bug), and a header with an impossible length stops ixcom2sbp (C45_short_length_bug, C45_long_length_bug): hence UbxInput, IxcomInput and Cut. Not modelled: the command line, the bytes of the SBP frames and write errors, which both programs ignore.
* **C77** -S swallows the next word (C77_sbas_bug), legacy messages and ephemerides of a disabled constellation still pass (C77_legacy_bug), a negative code writes before the bias table (C77_negative_code_bug), a date that does not exist is accepted (C77_date_bug): hence no -S in Line and the restriction to MSM in C77_disabled_partial. Not modelled: printed text and verbosity; sscanf, time(NULL) and the time functions of libswiftnav are parameters; getopt is GNU getopt.
* **C78** the epochs must satisfy `EpochOk`, which leaves out what the code spoils: P codes come back as C/A (C78_pcode_bug), a satellite without a valid first-frequency phase is dropped with its pseudorange and second frequency (C78_no_phase_bug), a second frequency before its first is dropped (C78_order_bug), pseudoranges more than 163 m apart wrap around (C78_second_wrap_bug). Also left out: 32 satellites of one system, phases more than 261 m from the pseudorange, pseudorange pairs with a multiple of a light-millisecond between them, and a receiver with signal biases. Every double operation of both converters and of the codec rounds as in IEEE-754.
* **C79** an ellipse that is long in the east-west direction can get orientation 0 instead of 90 degrees, the direction of its minor axis (C79_orientation_bug); `Tilted` leaves these out. A covariance matrix that is positive semidefinite before its entries are rounded to float can give a semi-minor axis of nan (C79_nan_bug); for entries that are positive semidefinite as sent it cannot (C79_minor_finite). Libm is assumed accurate as `Accurate` says (square roots correctly rounded, arc tangents to 2^-50); such functions exist (accurate_exists).
* **C80** the items must satisfy `Fits` (as in C74: the conditions of C71 to C73, epochs complete and not interleaved with other messages), and the bytes must be fetched in time. That is not always possible: the FIFO of 2048 bytes is read only after all frames of a call were written, and a full epoch makes more (C80_epoch_bug: 2222 bytes for 196 observations). The library names its receiver "SWFT" after each position, for which rtcm3tosbp makes up a GLONASS bias message (C80_bias_bug). The decoding of SBP payloads (libsbp) is a parameter.
* **C82** Exact for 1005, 1006, 1007, 1008, 1020, 1029, 1033, 1042, 1045, 1046 and 4062. For 1019 the two times come back exchanged (C82_gps_ephemeris_bug; restored by a second hop), for 1230 the bias indicator comes back 0 (C09_bias_indicator_bug); everything else in these two is exact. Observation messages are covered by C11-C13 from the encoder's side only.
