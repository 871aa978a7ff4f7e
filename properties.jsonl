{"id": "C01", "title": "RTCM stream conversion does not depend on how the byte stream is chunked", "statement": "For any byte stream, the sequence of RTCM frames that the RTCM-to-SBP converter extracts and hands to message decoding is a function of the concatenated bytes only: two read callbacks that deliver the same bytes in different non-empty pieces yield the same sequence of frames once every byte has been delivered (no frame lost, duplicated or reordered, no byte dropped by the internal buffer).", "quantifier": "every byte stream of any length and every way of splitting it into read-callback deliveries", "why_tests_cant": "the splits of one stream are exponentially many; a test exercises a handful of chunk sizes", "anchors": ["c/gnss_converters/src/rtcm3_sbp.c:rtcm2sbp_process", "c/gnss_converters/src/rtcm3_sbp.c:extract_msg_len", "c/gnss_converters/src/rtcm3_sbp.c:verify_crc"]}
{"id": "C02", "title": "Only CRC-correct, well-delimited, non-overlapping RTCM frames are decoded", "statement": "Every frame handed to RTCM message decoding starts with 0xD3, has a non-zero 10-bit length equal to its payload length, carries a 24-bit CRC equal to the CRC of the preceding bytes, and occupies a contiguous region of the input stream; the regions are disjoint and in stream order. A stream that is a concatenation of valid frames is decoded to exactly those frames, apart from frames still incomplete/unscanned at the tail.", "quantifier": "every byte stream (including garbage, corrupted and truncated frames)", "why_tests_cant": "adversarial garbage positions and false sync points cannot be enumerated", "anchors": ["c/gnss_converters/src/rtcm3_sbp.c:rtcm2sbp_process", "c/gnss_converters/src/rtcm3_sbp.c:rtcm2sbp_decode_frame"]}
{"id": "C03", "title": "The RTCM receive buffer never overflows and always makes progress", "statement": "Whatever the stream, the RTCM-to-SBP reader never has more unconsumed bytes than its 4096-byte buffer can take together with the next read, so no delivered byte is ever discarded by the buffer, and after each processing call fewer than one maximum-size frame of bytes remain unconsumed.", "quantifier": "every history of reads of any sizes and contents", "why_tests_cant": "the invariant is over unbounded histories", "anchors": ["c/gnss_converters/src/rtcm3_sbp.c:rtcm2sbp_process", "c/gnss_converters/include/gnss-converters/rtcm3_sbp.h:rtcm3_sbp_state"]}
{"id": "C04", "title": "RTCM frames produced by the SBP-to-RTCM encoder are accepted by the RTCM reader", "statement": "For every payload of 1 to 1017 bytes the framing used by the SBP-to-RTCM converter yields preamble, 10-bit length, payload and CRC that the RTCM-to-SBP reader accepts as exactly one frame with the same payload; and the framed message never exceeds the frame buffer.", "quantifier": "every payload content and size the encoder can produce", "why_tests_cant": "payload space is unbounded; size boundary cases are rare", "anchors": ["c/gnss_converters_extra/src/sbp_rtcm3.c:encode_rtcm3_frame", "c/gnss_converters/src/rtcm3_sbp.c:rtcm2sbp_process"]}
{"id": "C05", "title": "Bit-field writes read back exactly and touch nothing else", "statement": "Writing an unsigned, signed (two's complement) or sign-magnitude value of any width at any bit position of a buffer and reading the same field back returns the value whenever it fits the width, and every other bit of the buffer is unchanged.", "quantifier": "all buffers, all bit positions, widths 1..32 (1..64 for the long variants) and all values", "why_tests_cant": "positions x widths x values is astronomically large and boundary-sensitive", "anchors": ["c/librtcm/src/bits.c:rtcm_setbitu", "c/librtcm/src/bits.c:rtcm_getbitu", "c/librtcm/src/bits.c:rtcm_getbits", "c/librtcm/src/bits.c:rtcm_setbitul", "c/librtcm/src/bits.c:rtcm_getbitsl", "c/librtcm/src/bits.c:rtcm_set_sign_magnitude_bit"]}
{"id": "C06", "title": "Station position messages 1005/1006 survive encode/decode", "statement": "Decoding the encoding of an RTCM 1005 or 1006 message returns the same message: all integer and flag fields equal, coordinates and antenna height equal to the input rounded to 0.1 mm, for every coordinate in the field's range.", "quantifier": "every 1005/1006 message whose fields are in the RTCM field ranges, every prior content of the output buffer", "why_tests_cant": "continuous coordinate ranges; sign and rounding corner cases", "anchors": ["c/librtcm/src/encode.c:rtcm3_encode_1005", "c/librtcm/src/encode.c:rtcm3_encode_1006", "c/librtcm/src/decode.c:rtcm3_decode_1005", "c/librtcm/src/decode.c:rtcm3_decode_1006"]}
{"id": "C07", "title": "Antenna/receiver descriptor messages 1007/1008/1033 survive encode/decode", "statement": "Decoding the encoding of a 1007, 1008 or 1033 message returns the same station id, setup id and strings whenever each string has at most 31 characters, and a message announcing a string of more than 32 characters is rejected instead of overrunning the string buffers.", "quantifier": "all strings of all lengths 0..31 in each of the fields; all byte buffers on decode", "why_tests_cant": "combinatorial string lengths shift every later field", "anchors": ["c/librtcm/src/encode.c:rtcm3_encode_1007", "c/librtcm/src/encode.c:rtcm3_encode_1008", "c/librtcm/src/encode.c:rtcm3_encode_1033", "c/librtcm/src/decode.c:rtcm3_decode_1007", "c/librtcm/src/decode.c:rtcm3_decode_1008", "c/librtcm/src/decode.c:rtcm3_decode_1033"]}
{"id": "C08", "title": "Text (1029) and Swift-proprietary (4062) messages survive encode/decode", "statement": "Decoding the encoding of a 1029 text message returns the same station id, date, time, character count and UTF-8 bytes for every text of 0..127 code units; decoding the encoding of a 4062 message returns the same message type, sender and payload for every payload of 0..255 bytes.", "quantifier": "all texts and payloads of all lengths", "why_tests_cant": "payload contents and lengths are unbounded in practice", "anchors": ["c/librtcm/src/encode.c:rtcm3_encode_1029", "c/librtcm/src/decode.c:rtcm3_decode_1029", "c/librtcm/src/encode.c:rtcm3_encode_4062", "c/librtcm/src/decode.c:rtcm3_decode_4062"]}
{"id": "C09", "title": "GLONASS code-phase bias message 1230 survives encode/decode", "statement": "Decoding the encoding of a 1230 message returns the same station id, bias indicator, signal mask and biases (rounded to 2 cm), for every mask subset.", "quantifier": "all 1230 messages with biases in range", "why_tests_cant": "16 masks x continuous biases, and interaction of overlapping writes", "anchors": ["c/librtcm/src/encode.c:rtcm3_encode_1230", "c/librtcm/src/decode.c:rtcm3_decode_1230"]}
{"id": "C10", "title": "Ephemeris messages 1019/1020/1042/1044/1045/1046 survive encode/decode", "statement": "For each constellation with an encoder (GPS 1019, GLONASS 1020, BeiDou 1042, Galileo 1045/1046), decoding the encoding of an ephemeris message returns the same message for every field value within the RTCM field width; QZSS 1044, which has no encoder, is decoded according to its published field layout.", "quantifier": "all ephemeris messages with in-range fields", "why_tests_cant": "30 fields with independent ranges per constellation", "anchors": ["c/librtcm/src/eph_encode.c", "c/librtcm/src/eph_decode.c"]}
{"id": "C11", "title": "Legacy observation messages 1001-1004/1010/1012 survive encode/decode", "statement": "Decoding the encoding of a legacy GPS or GLONASS observation message returns the same header and, for each satellite and frequency, the same validity flags and the same pseudorange, phase, lock and CNR up to the documented resolution.", "quantifier": "all observation messages with up to 31 satellites", "why_tests_cant": "number of satellites x observations is unbounded in practice", "anchors": ["c/librtcm/src/encode.c:rtcm3_encode_1001", "c/librtcm/src/encode.c:rtcm3_encode_1004", "c/librtcm/src/encode.c:rtcm3_encode_1012", "c/librtcm/src/decode.c:rtcm3_decode_1001", "c/librtcm/src/decode.c:rtcm3_decode_1004", "c/librtcm/src/decode.c:rtcm3_decode_1012"]}
{"id": "C12", "title": "MSM header and masks survive encode/decode", "statement": "Decoding an encoded MSM4/MSM5 message returns the same header (message number, station id, epoch time, flags), the same satellite and signal masks, and the same cell mask, for every mask combination with at most 64 cells and 32 satellites.", "quantifier": "all headers, all satellite masks of <=32 satellites, all signal masks, all cell masks", "why_tests_cant": "2^64 x 2^32 mask combinations", "anchors": ["c/librtcm/src/encode.c:rtcm3_encode_msm_header", "c/librtcm/src/decode.c:rtcm3_read_msm_header"]}
{"id": "C13", "title": "MSM cell contents survive encode/decode", "statement": "Decoding an encoded MSM4/MSM5 message returns for each satellite the same rough range and extended info and for each present cell the same fine pseudorange, fine phase, lock indicator, half-cycle flag, CNR and range-rate up to field resolution, or marks the value invalid; values are never attributed to another satellite or signal. Whatever is accepted has values within the standard's field ranges, and every range, phase and signal to noise ratio delivered is the exact sum of its fields (a double).", "quantifier": "all MSM messages with up to 64 cells", "why_tests_cant": "cells x values x masks", "anchors": ["c/librtcm/src/encode.c:rtcm3_encode_msm4", "c/librtcm/src/encode.c:rtcm3_encode_msm5", "c/librtcm/src/decode.c:rtcm3_decode_msm4", "c/librtcm/src/decode.c:rtcm3_decode_msm5"]}
{"id": "C14", "title": "Decoders reject messages of another type and truncated messages", "statement": "Every RTCM decoder given a payload whose message number is not the one it decodes reports a type mismatch, and given a payload shorter than the message it announces reports an invalid message instead of producing field values.", "quantifier": "all payloads of all lengths", "why_tests_cant": "every truncation point of every message", "anchors": ["c/librtcm/src/decode.c", "c/librtcm/src/eph_decode.c", "c/librtcm/src/ssr_decode.c", "c/librtcm/src/sta_decode.c"]}
{"id": "C15", "title": "Decoded epoch times are always within their legal range", "statement": "A decoder that accepts an observation or MSM message delivers a GPS/Galileo/BeiDou time of week strictly below one week, and a GLONASS time of day below one day plus a leap second; any out-of-range value is rejected.", "quantifier": "all payloads", "why_tests_cant": "rejection must hold for every bit pattern", "anchors": ["c/librtcm/src/decode.c:rtcm3_read_header", "c/librtcm/src/decode.c:rtcm3_read_glo_header", "c/librtcm/src/decode.c:rtcm3_read_msm_header"]}
{"id": "C16", "title": "Lock-time indicators never overstate lock time and round-trip", "statement": "For the legacy, MSM and SBP lock-time scales, converting a lock duration to an indicator and back never yields a longer duration than the input, the conversions are monotone, and converting any indicator to a duration and back returns the same indicator.", "quantifier": "every lock duration in [0, 2^22) s and every indicator", "why_tests_cant": "continuous durations with many piecewise-linear boundaries", "anchors": ["c/librtcm/src/decode.c:rtcm3_decode_lock_time", "c/librtcm/src/encode.c:rtcm3_encode_lock_time", "c/gnss_converters/src/rtcm3_sbp.c", "c/librtcm/src/msm_utils.c"]}
{"id": "C17", "title": "MSM message numbers, constellations and message types are mutually inverse", "statement": "The message number built from a constellation and MSM type is classified back to that constellation and type, and every other number is classified as unknown.", "quantifier": "all 16-bit message numbers and all constellation/type pairs", "why_tests_cant": "65536 numbers; off-by-one block boundaries", "anchors": ["c/gnss_converters/src/rtcm3_utils.c:to_msm_msg_num", "c/librtcm/src/msm_utils.c:to_msm_type", "c/librtcm/src/msm_utils.c:to_constellation"]}
{"id": "C18", "title": "Signal-code and satellite numbering maps are injective and mutually inverse", "statement": "Per constellation, mapping a supported signal code to its MSM signal id and back returns the code, two ids map to the same code only for the GPS P/W pairs (1P/1W and 2P/2W, which share a code), and PRN to MSM satellite id and back is the identity on legal PRNs.", "quantifier": "all signal codes, all ids, all PRNs and constellations", "why_tests_cant": "cross product of tables", "anchors": ["c/gnss_converters/src/rtcm3_utils.c:msm_signal_to_code", "c/gnss_converters/src/rtcm3_utils.c:code_to_msm_signal_id", "c/gnss_converters/src/rtcm3_utils.c:msm_sat_to_prn", "c/gnss_converters/src/rtcm3_utils.c:prn_to_msm_sat_id"]}
{"id": "C19", "title": "MSM mask indexing is consistent", "statement": "In any MSM mask, the index of the n-th set position and the number of set positions before a position are inverse to each other; adding a (code, satellite) pair to an MSM header makes that pair addressable and leaves previously added pairs addressable.", "quantifier": "all masks of any size, all n, all insertion orders", "why_tests_cant": "2^32 masks and all insertion orders", "anchors": ["c/librtcm/src/msm_utils.c:count_mask_values", "c/librtcm/src/msm_utils.c:find_nth_mask_value", "c/gnss_converters/src/rtcm3_utils.c:msm_add_to_header", "c/gnss_converters/src/rtcm3_utils.c:msm_add_to_cell_mask"]}
{"id": "C20", "title": "Observation epochs are split into SBP messages without loss", "statement": "When an epoch of observations is sent, the concatenation of the SBP observation messages is exactly the buffered observations in order, each message has at most 14 observations, messages are numbered 0..total-1 with the right total in the header, at least one message is sent, and the buffer is empty afterwards.", "quantifier": "every buffer content of 0..210 observations", "why_tests_cant": "all sizes and boundary counts", "anchors": ["c/gnss_converters/src/rtcm3_sbp.c:send_observations"]}
{"id": "C21", "title": "The observation buffer is bounded and neither loses, invents, reorders nor misattributes observations", "statement": "For every history of RTCM messages the observation buffer never exceeds 210 entries; the observations sent so far followed by those still waiting are, in order and without repetition, observations that were received, each sent under the time of week and station it was received with; a message that is newer than the last one of its kind, while the buffer does not fill up, loses nothing; a message that is not newer is dropped without effect; SBP observation epochs leave in strictly increasing time order and one SBP epoch never contains observations of two different epochs.", "quantifier": "every history of RTCM messages, every time input", "why_tests_cant": "unbounded histories", "anchors": ["c/gnss_converters/src/rtcm3_sbp.c:add_gps_obs_to_buffer", "c/gnss_converters/src/rtcm3_sbp.c:add_glo_obs_to_buffer", "c/gnss_converters/src/rtcm3_sbp.c:add_obs_to_buffer", "c/gnss_converters/src/rtcm3_sbp.c:add_msm_obs_to_buffer"]}
{"id": "C22", "title": "GPS time reconstruction picks the nearest week", "statement": "The full GPS time computed from a time of week and a rover reference time has the given time of week and differs from the reference by at most half a week.", "quantifier": "every time of week and every reference time", "why_tests_cant": "week-boundary cases in both directions at every offset", "anchors": ["c/gnss_converters/src/rtcm3_sbp.c:compute_gps_message_time", "c/gnss_converters/src/rtcm3_sbp.c:compute_gps_time"]}
{"id": "C23", "title": "GLONASS and BeiDou times are converted consistently", "statement": "A GLONASS time of day together with a known leap second is converted to the GPS time within 12 hours of the reference; converting GPS to BeiDou/GLONASS time of week and back is the identity and stays within one week.", "quantifier": "every time of day/week, every leap-second value, every reference time", "why_tests_cant": "wrap-around at day and week boundaries", "anchors": ["c/gnss_converters/src/rtcm3_sbp.c:compute_glo_time", "c/gnss_converters/src/rtcm3_sbp.c:beidou_tow_to_gps_tow", "c/gnss_converters_extra/src/sbp_rtcm3.c:gps_tow_to_beidou_tow", "c/gnss_converters_extra/src/sbp_rtcm3.c:compute_glo_tow_ms", "c/gnss_converters_extra/src/sbp_rtcm3.c:compute_glo_tod_ms"]}
{"id": "C24", "title": "Concurrent time-truth updates never go backwards", "statement": "Whatever the interleaving of concurrent updates and readers, the shared time estimate never goes back (up to the resolution of the float comparison of times, 1/32 s, the code uses), once solved it never becomes unsolved, every value read was written by some update or is the initial one, and an update that reports success has been published.", "quantifier": "every interleaving of any number of concurrent updaters and readers", "why_tests_cant": "schedules cannot be enumerated by tests", "anchors": ["c/gnss_converters/src/time_truth.c:time_truth_update", "c/gnss_converters/src/time_truth.c:time_truth_get"]}
{"id": "C25", "title": "Without a time solution only time-independent messages are converted", "statement": "While no time reference is available, a message whose type needs time has no effect and produces no output; a message of another type produces only its own conversion (for MSM1-3: a warning), and no observation is ever sent.", "quantifier": "every message number and payload", "why_tests_cant": "4096 message numbers x payloads x state", "anchors": ["c/gnss_converters/src/rtcm3_sbp.c:rtcm2sbp_decode_payload"]}
{"id": "C26", "title": "SSR orbit and clock corrections are paired only within the same epoch", "statement": "An SBP orbit-clock correction is emitted only from an orbit and a clock correction of the same satellite, constellation, epoch, update interval, provider and solution; every matched satellite gives exactly one message with the fields of its own corrections.", "quantifier": "all histories of orbit and clock messages", "why_tests_cant": "interleavings of two message streams", "anchors": ["c/gnss_converters/src/rtcm3_sbp_ssr.c", "c/gnss_converters/src/rtcm3_sbp.c:rtcm2sbp_decode_payload"]}
{"id": "C27", "title": "SSR code and phase biases are split without loss", "statement": "The SSR bias messages emitted for a satellite carry exactly that satellite's biases in order, each message within the SBP payload limit.", "quantifier": "all bias counts", "why_tests_cant": "all counts per satellite up to the wire maximum", "anchors": ["c/gnss_converters/src/rtcm3_sbp_ssr.c:rtcm3_ssr_code_bias_to_sbp", "c/gnss_converters/src/rtcm3_sbp_ssr.c:rtcm3_ssr_phase_bias_to_sbp"]}
{"id": "C28", "title": "SBP-to-RTCM observation assembly is bounded and never mixes epochs", "statement": "For every history of SBP observation messages with well-formed sequence headers, the assembly buffer never overflows, an emitted RTCM epoch contains only observations with the same time and sender and contains the complete set announced by the headers unless a newer epoch or a sequence gap forces it out.", "quantifier": "every history of SBP observation messages", "why_tests_cant": "unbounded histories of lost/reordered messages", "anchors": ["c/gnss_converters_extra/src/sbp_rtcm3.c:sbp2rtcm_sbp_obs_cb"]}
{"id": "C29", "title": "Exactly the last MSM message of an epoch is marked as last", "statement": "When an epoch is emitted as MSM messages, each constellation with observations gets exactly one message, and the multiple-message bit is clear in exactly the last message emitted.", "quantifier": "every set of observations", "why_tests_cant": "2^5 constellation subsets x contents", "anchors": ["c/gnss_converters_extra/src/sbp_rtcm3.c:sbp_buffer_to_msm"]}
{"id": "C30", "title": "Accuracy-index and fit-interval conversions are consistent inverses", "statement": "Converting a URA/SISA/fit-interval index to its physical value and back returns the index, and converting a physical value to an index never understates the accuracy value.", "quantifier": "all indices and all physical values", "why_tests_cant": "continuous values across table boundaries", "anchors": ["c/gnss_converters/src/rtcm3_utils.c:convert_ura_to_uri", "c/gnss_converters/src/rtcm3_utils.c:convert_gps_uri_to_ura", "c/gnss_converters/src/rtcm3_utils.c:convert_sisa_to_meters", "c/gnss_converters/src/rtcm3_utils.c:convert_meters_to_sisa", "c/gnss_converters/src/rtcm3_utils.c:rtcm3_encode_fit_interval_gps", "c/gnss_converters/src/rtcm3_utils.c:rtcm3_decode_fit_interval_gps"]}
{"id": "C31", "title": "Every NMEA sentence carries a correct checksum and terminator", "statement": "Every sentence passed to the NMEA output callback has the form '$' body '*' two uppercase hex digits CR LF where the digits are the XOR of the body characters, whatever the body, and it never exceeds the sentence buffer.", "quantifier": "every sentence body of every length", "why_tests_cant": "all bodies, including ones that fill the buffer", "anchors": ["c/gnss_converters/src/nmea.c:nmea_append_checksum", "c/gnss_converters/src/nmea.c:vsnprintf_wrap", "c/gnss_converters/src/nmea.c:nmea_output"]}
{"id": "C32", "title": "NMEA positions are well-formed", "statement": "The degrees/minutes printed for a latitude or longitude have minutes strictly below 60 and represent the input angle to the printed resolution, for every finite coordinate.", "quantifier": "all latitudes and longitudes", "why_tests_cant": "rounding near integral degrees and minutes", "anchors": ["c/gnss_converters/src/nmea.c:send_gpgga", "c/gnss_converters/src/nmea.c:send_gprmc", "c/gnss_converters/src/nmea.c:send_gpgll"]}
{"id": "C33", "title": "NMEA UTC time rounding carries correctly", "statement": "Rounding a UTC time to the printed precision yields a legal calendar time (hour<24, minute<60, second<60 or leap, month and day legal) equal to the input rounded, carrying across minute, hour, day, month and year including leap years.", "quantifier": "all UTC times", "why_tests_cant": "carry chains and leap-year rules", "anchors": ["c/gnss_converters/src/nmea.c:round_utc_time", "c/gnss_converters/src/nmea.c:get_utc_time_string"]}
{"id": "C34", "title": "GSA/GSV satellite lists are complete and bounded", "statement": "GSA sentences list at most twelve satellites each and GSV sentences four each, with the announced message counts equal to those sent, and together each satellite is listed exactly once.", "quantifier": "all satellite sets", "why_tests_cant": "all set sizes and constellation mixes", "anchors": ["c/gnss_converters/src/nmea.c:send_gsa", "c/gnss_converters/src/nmea.c:send_gsv", "c/gnss_converters/src/nmea.c:nmea_gsv_print"]}
{"id": "C35", "title": "Each NMEA sentence is emitted at most once per epoch and only from coherent inputs", "statement": "For every history of SBP messages, a sentence type is emitted at most once per epoch, and only when all SBP messages it depends on carry that same time of week (or the UTC epoch) and come from the selected GNSS/fused source.", "quantifier": "every history of SBP navigation messages", "why_tests_cant": "message orders and losses are unbounded", "anchors": ["c/gnss_converters/src/sbp_nmea.c:nmea_ready", "c/gnss_converters/src/sbp_nmea.c:check_nmea_send", "c/gnss_converters/src/sbp_nmea.c:sbp2nmea"]}
{"id": "C36", "title": "NMEA heading and fix-quality fields are in range", "statement": "The heading printed is in [0,360) for every input yaw and the mode/status/quality indicators are a total function of the solution flags with the documented codes.", "quantifier": "all 32-bit yaws and all flag bytes", "why_tests_cant": "2^32 yaws", "anchors": ["c/gnss_converters/src/nmea.c:send_gpths", "c/gnss_converters/src/nmea.c:get_nmea_status", "c/gnss_converters/src/nmea.c:get_nmea_mode_indicator", "c/gnss_converters/src/nmea.c:get_nmea_quality_indicator"]}
{"id": "C37", "title": "UBX stream conversion does not depend on chunking and only delivers checksum-correct frames", "statement": "The sequence of UBX frames extracted is a function of the concatenated byte stream, each frame has the sync characters, announced length within the buffer, and a correct Fletcher checksum.", "quantifier": "every byte stream and every chunking", "why_tests_cant": "exponentially many chunkings", "anchors": ["c/gnss_converters/src/ubx_sbp.c:read_ubx_frame", "c/gnss_converters/src/ubx_sbp.c:read_ubx_bytes", "c/gnss_converters/src/ubx_sbp.c:reload_ubx_buffer"]}
{"id": "C38", "title": "UBX checksum detects every single-byte corruption", "statement": "Changing any one byte of the class/id/length/payload of a UBX frame changes its checksum.", "quantifier": "all frames of all lengths, all positions, all corruptions", "why_tests_cant": "all payloads", "anchors": ["c/gnss_converters/src/ubx_sbp.c:read_ubx_frame", "libubx checksum"]}
{"id": "C39", "title": "UBX messages survive encode/decode", "statement": "Decoding the encoding of a UBX message returns the same message for every supported message type and field value; a frame of another class/id is rejected.", "quantifier": "all messages with all field values and all repeated-block counts", "why_tests_cant": "field value space", "anchors": ["c/libubx/src/encode.c", "c/libubx/src/decode.c"]}
{"id": "C40", "title": "Broadcast ephemerides assembled from UBX subframes never mix issues of data", "statement": "A GPS, Galileo, GLONASS or BeiDou ephemeris is emitted only when all its subframes, words or strings have been received for the same satellite, each the latest of its number, with the same issue of data (GPS IODE/IODC, Galileo IODnav, GLONASS superframe, BeiDou consecutive seconds of week); it is the decoding of exactly those words, and none of them is used for a second emission. Conversely a complete consistent set of parts, in any order and with any other messages in between, leads to an emission (for GPS, two complete sets). SBAS messages are passed on exactly when preamble and checksum are right, with their data bits and time.", "quantifier": "all orders, losses and interleavings of navigation subframes", "why_tests_cant": "unbounded histories", "anchors": ["c/gnss_converters/src/ubx_ephemeris/gps.c", "c/gnss_converters/src/ubx_ephemeris/gal.c", "c/gnss_converters/src/ubx_ephemeris/glo.c", "c/gnss_converters/src/ubx_ephemeris/bds.c", "c/gnss_converters/src/ephemeris/sbas.c", "c/gnss_converters/src/ubx_sbp.c handle_rxm_sfrbx"]}
{"id": "C41", "title": "UBX raw measurements are split into SBP observation messages without loss", "statement": "For every raw measurement message (at most 210 measurements; a framed message has at most 127), the SBP observations in the emitted messages are, in order, exactly its measurements: same satellite and signal (a signal SBP has no code for is sent with the invalid code), pseudorange rounded down to 2 cm, phase and Doppler to the nearest 1/256, signal strength in 0.25 dB-Hz, saturating, lock time and validity flags; at most 14 per message, sequence headers right, and every message has the receiver time to 2 ns and the week. For values within the range of the SBP fields the conversion is always defined.", "quantifier": "every frame, every measurement list, every converter state", "why_tests_cant": "all sizes and unsupported-signal mixes", "anchors": ["c/gnss_converters/src/ubx_sbp.c:handle_rxm_rawx", "c/gnss_converters/src/ubx_sbp.c:fill_msg_obs"]}
{"id": "C42", "title": "Fixed-point packing of phase and Doppler is faithful", "statement": "The packed integer/fraction pair of a UBX carrier phase or Doppler is the input to the nearest 1/256 (double arithmetic included), with the fraction in 0..255 and the carry into the integer part; a value whose integer part does not fit is never written wrapped.", "quantifier": "every value from the least integer of the field to below its greatest", "why_tests_cant": "continuous values; carry boundary", "anchors": ["c/gnss_converters/src/ubx_sbp.c:pack_carrier_phase", "c/gnss_converters/src/ubx_sbp.c:pack_doppler"]}
{"id": "C43", "title": "UBX IMU samples are neither lost nor distorted, and auxiliary messages come at the documented cadence", "statement": "Over any history of UBX frames the IMU messages are one auxiliary message followed by 20 raw samples, repeated; each auxiliary message names the sensor ranges and the last temperature received. The j-th sample of an external-sensor raw message has on each axis the j-th datum of that axis, scaled to the SBP unit and saturated, and the time of the datum that completes it on a clock that survives wraps of the 32-bit millisecond counter and the 24-bit tags; a message whose data come in complete groups gives exactly one sample per group; after a gap of more than a second the message is dropped and the clock starts anew.", "quantifier": "all histories of frames, all data lists", "why_tests_cant": "unbounded histories, wraps after 49 days, all data orders and values", "anchors": ["c/gnss_converters/src/ubx_sbp.c:handle_esf_raw", "c/gnss_converters/src/ubx_sbp.c:send_imu_aux", "c/gnss_converters/src/ubx_sbp.c:parse_imu_data", "c/gnss_converters/src/ubx_sbp.c:ubx_convert_temperature_to_bmi160"]}
{"id": "C44", "title": "Odometry and wheel-tick outputs are consistent with their inputs", "statement": "Over any history of UBX frames, the odometry and wheel-tick messages are, in order, exactly one for every odometry datum of the external-sensor messages that are not dropped after a gap of more than a second: the signed speed in mm/s with its direction flag, or the wheel and its accumulated tick count; with the message's millisecond counter as time, modulo a week. The tick count of a wheel follows its counter, backwards in reverse. Conversion is always defined.", "quantifier": "all histories of frames, all measurement lists and counter values", "why_tests_cant": "unbounded histories with wrap-around", "anchors": ["c/gnss_converters/src/ubx_sbp.c:handle_esf_meas", "c/gnss_converters/src/ubx_sbp.c:convert24b", "c/gnss_converters/src/ubx_sbp.c:check_overflow"]}
{"id": "C45", "title": "IXCOM frames are validated by their CRC and read independently of chunking", "statement": "The frame check is the CRC with the CCITT polynomial; it detects every change of a single byte and of two neighbouring bytes on the same side of the check bytes. The messages the converter emits are exactly those of the frames of the stream that have a correct CRC, in order, whatever the sizes of the reads and whatever empty or failing reads come between.", "quantifier": "all byte buffers; all streams of frames with noise between them, all chunkings, all numbers of calls", "why_tests_cant": "all payloads and chunkings", "anchors": ["c/libixcom/src/decode.c", "c/gnss_converters/src/ixcom_sbp.c"]}
{"id": "C46", "title": "IXCOM times are converted exactly", "statement": "The time of week and fraction of an IMU message equal the time of its iXCOM frame rounded down to 1/256 ms, with the fraction at most 255 and the time of week below one week; the time of an odometry message is that of its frame rounded down to 1 ms, and that of a wheel tick message is exact in microseconds.", "quantifier": "all streams with all second and microsecond values of the week", "why_tests_cant": "all microsecond values", "anchors": ["c/gnss_converters/src/ixcom_sbp.c"]}
{"id": "C47", "title": "NovAtel binary logs are found in a stream and handed on only with a correct CRC", "statement": "Whatever the reads return, every message the NovAtel parser hands on is the content of a log (long or short header) with a correct CRC-32 that occurs in the bytes read, every field being that of the log, in order, without overlap and at most once. The CRC is the remainder modulo the standard polynomial, and of two byte strings that differ within 32 consecutive bits at most one has a correct CRC. Of a file, all logs that are separated by bytes other than the first sync byte are handed on.", "quantifier": "every sequence of reads and read errors, every file, every number of turns of the loop", "why_tests_cant": "adversarial streams, all CRC values and all ways in which logs can nest or be split over reads", "anchors": ["c/nov2sbp/parser/parser.cc: Parser::process, parse_regular_message, parse_short_message, parse_body", "c/nov2sbp/parser/crc_checker.cc", "c/nov2sbp/parser/message_*.cc: FromBytes", "c/nov2sbp/src/nov2sbp_main.cc"]}
{"id": "C48", "title": "GLONASS frequency-channel bookkeeping stays in range", "statement": "Whatever sequence of frequency-channel updates is applied, each stored GLONASS channel is either unknown or a legal RTCM channel number for exactly the satellite it was given for, and no update touches memory outside the table.", "quantifier": "all histories of updates including invalid satellites and channels", "why_tests_cant": "unbounded histories and out-of-range inputs", "anchors": ["c/gnss_converters/src/rtcm3_sbp.c:rtcm2sbp_set_glo_fcn", "c/gnss_converters/src/rtcm3_sbp.c:sbp_fcn_to_rtcm", "c/gnss_converters_extra/src/sbp_rtcm3.c:sbp2rtcm_set_glo_fcn"]}
{"id": "C49", "title": "Legacy observation messages of an epoch hold exactly its satellites", "statement": "When an epoch is emitted as legacy messages, exactly the 1004 message (if any GPS satellite has a first-frequency observation) followed by the 1012 message (if any GLONASS satellite of known channel has one) is sent; they hold exactly those satellites, in order, with both frequencies as observed; the synchronous flag is 1 iff another message of the epoch follows; station and time are those of the epoch.", "quantifier": "every set of observations", "why_tests_cant": "all orders, subsets, duplicates and channel tables", "anchors": ["c/gnss_converters_extra/src/sbp_rtcm3.c:sbp_buffer_to_legacy_rtcm3", "c/gnss_converters_extra/src/sbp_rtcm3.c:sbp_obs_to_freq_data"]}
{"id": "C50", "title": "Broadcast ephemerides survive RTCM to SBP and back", "statement": "For every broadcast ephemeris message (GPS, QZSS, Galileo I/NAV and F/NAV, BeiDou, GLONASS), the SBP ephemeris message carries for exactly that satellite the value of every orbit and clock field in the physical unit of the interface specification, without loss, with the reference times placed in the GPS week closest to the rover's clock; converting that SBP message back to RTCM yields the same raw integers.", "quantifier": "every raw field value the message can carry, every rover time", "why_tests_cant": "2^27..2^32 values per field, some thirty fields and all week alignments; single values (t_b = 0, toe = 0) behave differently", "anchors": ["c/gnss_converters/src/rtcm3_sbp_ephemeris.c:rtcm3_gps_eph_to_sbp", "c/gnss_converters/src/rtcm3_sbp_ephemeris.c:rtcm3_glo_eph_to_sbp", "c/gnss_converters/src/rtcm3_sbp_ephemeris.c:rtcm3_bds_eph_to_sbp", "c/gnss_converters/src/rtcm3_sbp_ephemeris.c:rtcm3_gal_eph_to_sbp"]}
{"id": "C51", "title": "RTCM observation values survive into SBP", "statement": "For every legacy (1002/1004/1010/1012) or MSM4..7 observation message, the SBP observations converted from it are, in the message's order, exactly its convertible measurements: same satellite and signal, pseudorange to 1 cm, carrier phase and Doppler to 1/512 cycle and Hz with integer and fractional part consistent, signal to noise to 1/8 dB-Hz, lock time never overstated and within a factor of two, and the validity flags (pseudorange, phase, half cycle, Doppler) exactly those of the measurement; provided the value fits the SBP field. The MSM signal numbers are translated to the SBP codes of the standard's signals.", "quantifier": "every payload, every satellite/signal/cell mask, every field value in range, every channel table and bias table", "why_tests_cant": "Rounding carries, masks and flag combinations range over astronomically many messages; tests compare a few recorded ones.", "anchors": ["gnss_converters/src/rtcm3_sbp.c: rtcm3_to_sbp_obs, add_msm_obs_to_buffer, add_obs_to_buffer, get_sid_from_msm, unsupported_signal", "gnss_converters/src/rtcm3_utils.c: msm_signal_to_code, msm_sat_to_prn, msm_get_glo_fcn"]}
{"id": "C52", "title": "u-blox navigation solutions survive into SBP", "statement": "After any history, a NAV-PVT message becomes exactly one POS_LLH with its position, accuracies (saturating), satellite count and the SBP fix mode of its fix; a NAV-ATT message becomes one ORIENT_EULER with its angles and accuracies; a NAV-VELECEF becomes one VEL_ECEF with its velocity and accuracy; when the converter is told to use the high-rate solution, positions and attitudes come from HNR-PVT messages only (flags and satellites of the last NAV-PVT, roll and pitch of the last NAV-ATT). No other message produces these, and converters do not influence each other.", "quantifier": "every history of frames, every field value", "why_tests_cant": "2^32 values per field, all flag combinations, all interleavings of the message types", "anchors": ["c/gnss_converters/src/ubx_sbp.c:handle_nav_pvt", "c/gnss_converters/src/ubx_sbp.c:handle_hnr_pvt", "c/gnss_converters/src/ubx_sbp.c:handle_nav_att", "c/gnss_converters/src/ubx_sbp.c:handle_nav_velecef", "c/gnss_converters/src/ubx_sbp.c:ubx_set_hnr_flag"]}
{"id": "C53", "title": "Satellites in view of a u-blox receiver are sent without loss", "statement": "The satellites of a NAV-SAT message are sent in SV_AZ_EL and MEASUREMENT_STATE messages, in order, each exactly once, with their azimuth, elevation and signal strength; no message is empty or longer than SBP allows, and all but the last are full.", "quantifier": "every NAV-SAT message, every number of satellites, every SBP message size", "why_tests_cant": "every count around the chunk size and every field value", "anchors": ["c/gnss_converters/src/ubx_sbp.c:handle_nav_sat", "c/gnss_converters/src/ubx_sbp.c:fill_msg_measurement_state", "c/gnss_converters/src/ubx_sbp.c:fill_msg_sv_az_el"]}
{"id": "C54", "title": "Every SBP message comes from its UBX message", "statement": "Whatever the state of the converter, an SBP message is only sent in response to a frame of the UBX class and number it stands for; all other frames are ignored. MON-HW frames are forwarded verbatim if they fit into one SBP message and dropped otherwise.", "quantifier": "every state, every frame", "why_tests_cant": "65536 class/number pairs with arbitrary payloads in arbitrary states", "anchors": ["c/gnss_converters/src/ubx_sbp.c:ubx_handle_frame", "c/gnss_converters/src/ubx_sbp.c:handle_mon_hw"]}
{"id": "C55", "title": "The GNSS time offset of a u-blox receiver is its GNSS time minus its time since start-up", "statement": "After any history, a GNSS time offset is sent only for a NAV-STATUS message with a good fix and valid time, once the receiver has said that its time is valid, has then sent observations, and has sent IMU data; whenever that is so and both times of the message are within half a week of those, it is sent. The offset is, exactly to the millisecond, the GNSS time of the message, in the week nearest to the last observations, minus its time since start-up, in the week nearest to the last IMU data; in the first three days it thus turns time since start-up into GNSS time.", "quantifier": "all histories of frames within 49 days of start-up, all NAV-STATUS messages", "why_tests_cant": "unbounded histories, two 32-bit times, week boundaries, double rounding", "anchors": ["c/gnss_converters/src/ubx_sbp.c: handle_nav_status, handle_rxm_rawx, handle_esf_raw, set_sbp_imu_time"]}
{"id": "C56", "title": "A u-blox stream is converted as a whole", "statement": "The SBP messages that any number of calls to the converter send are those of the frames of the byte stream in their order, however the stream is cut into reads; the ephemerides among them are exactly those assembled from the broadcast subframes in the order of the frames; a GLONASS ephemeris uses the leap second of the last RXM-RAWX before it, and only if that one was marked valid.", "quantifier": "all byte streams, all ways of cutting them into reads, all numbers of calls", "why_tests_cant": "unbounded streams, histories and read sizes", "anchors": ["c/gnss_converters/src/ubx_sbp.c: ubx_sbp_process, ubx_handle_frame, handle_rxm_sfrbx, handle_rxm_rawx", "c/gnss_converters/src/ubx_sbp.c: ubx_fetch_frame"]}
{"id": "C57", "title": "iXCOM inertial and wheel data keep their values", "statement": "Every IMU_RAW message has the accelerations and angular rates of an IMURAW frame with a correct CRC, to the nearest unit of 4 g / 2^15 and 125 deg/s / 2^15 and saturating at the ends of the range; the auxiliary message that announces these units comes directly after the first of each hundred IMU_RAW messages; speeds are converted to mm/s within the rounding of a float product, and tick counts are copied.", "quantifier": "all streams, all float bit patterns that are not NaN, all histories", "why_tests_cant": "2^32 bit patterns per field, and the count of messages is unbounded", "anchors": ["c/gnss_converters/src/ixcom_sbp.c:handle_imuraw", "c/gnss_converters/src/ixcom_sbp.c:handle_wheeldata", "c/gnss_converters/src/ixcom_sbp.c:send_imu_aux", "c/gnss_converters/src/ixcom_sbp.c:float_to_s16_clamped"]}
{"id": "C58", "title": "The iXCOM codec is lossless", "statement": "Decoding an encoded IMURAW or WHEELDATA message gives it back exactly if its CRC is right, and rejects it otherwise, whatever follows it in the buffer; encoding a decoded message gives back its bytes.", "quantifier": "all messages, all buffers", "why_tests_cant": "all field values", "anchors": ["c/libixcom/src/encode.c", "c/libixcom/src/decode.c", "c/libixcom/src/messages.c"]}
{"id": "C59", "title": "NovAtel to SBP as a whole: only logs in the stream are answered, in order, and all of them are", "statement": "Whatever is read and however it is cut up, the SBP messages sent are the answers, one after another, to logs with correct CRCs that occur in the bytes read, in order and without overlap; the answer to each depends only on the logs before it. Logs in a file separated by bytes other than the first sync byte are all answered.", "quantifier": "every sequence of reads and errors, every file, every number of turns of the loop", "why_tests_cant": "adversarial streams, unbounded histories", "anchors": ["c/nov2sbp/src/nov2sbp.cc: nov2sbp_main, write_sbp_*", "c/nov2sbp/parser/parser.cc: Parser::process"]}
{"id": "C60", "title": "NovAtel positions, velocities and attitudes become the SBP messages that say the same", "statement": "A BESTPOS log becomes one POS_LLH message with the position of the log bit for bit, the height plus the geoid separation at that position, the larger horizontal and the vertical standard deviation rounded to millimetres, and the fix mode of the position type. A BESTVEL log becomes one VEL_NED message: north, east and down velocity in mm/s within rounding of speed, track and vertical speed, and the flags of the last position if that has the same time. An INSATT log becomes one ORIENT_EULER message in microdegrees. Position and velocity are preceded by GPS_TIME exactly when the time is not that of the last such log.", "quantifier": "every log, every history of logs before it, every value of the floating point fields within the stated ranges", "why_tests_cant": "all double and float values, all histories", "anchors": ["c/nov2sbp/src/swiftnav_conversion_helpers.cc: convert_bestpos_to_pos_llh, convert_bestvel_to_vel_ned, convert_insatt_to_orient_euler, get_position_flags, float_to_u16, double_to_s32", "c/nov2sbp/src/nov2sbp.cc: write_sbp_best_pos, write_sbp_best_vel, write_sbp_ins_att, send_time_message"]}
{"id": "C61", "title": "NovAtel observations keep pseudorange, phase, Doppler, signal strength, lock time, signal and flags", "statement": "A RANGECMP log of n records becomes ceil(n/14) observation messages with consecutive numbers and the time of the log, which hold, in order, exactly the observations whose satellite and signal libswiftnav knows and whose values fit: pseudorange within 1 cm, phase with opposite sign and Doppler exact in 1/256, signal strength exact in 1/4 dB-Hz, lock time, satellite, signal, and flags from the tracking status. No other log makes observation messages.", "quantifier": "every RANGECMP log with 1 to 63 records, every history", "why_tests_cant": "all values of 11 bit fields per record, all lengths", "anchors": ["c/nov2sbp/src/swiftnav_conversion_helpers.cc: convert_rangecmp_record_to_mini_navmeas, convert_tracking_status_to_gnss_code, convert_tracking_status_to_navmeas_flags", "c/nov2sbp/src/send_sbp_obs_messages.cc: pack_obs_content, send_sbp_obs_messages", "c/nov2sbp/src/nov2sbp.cc: write_sbp_range_cmp"]}
{"id": "C62", "title": "NovAtel IMU data are scaled by the units of the IMU type and the rate", "statement": "A RAWIMUSX log of an IMU of a known type becomes one ANGULAR_RATE message (microdegrees per second) and one IMU_RAW message (8 g and 125 deg/s for 2^15, saturating), with the counts of the log times the unit of the type times the rate, within rounding; the rate is that of the time since the last IMU log if the times of week increase, else that of the type. IMU_AUX is sent with the first IMU log and then when a second has passed since the last.", "quantifier": "every IMU type, every 32-bit count, every history of logs", "why_tests_cant": "18 types, 2^192 counts, histories", "anchors": ["c/nov2sbp/src/swiftnav_conversion_helpers.cc: compute_imu_rate, get_imu_rate_from_type, get_imu_scale_gyro, get_imu_scale_accel, convert_rawimu_to_angular_rate, convert_rawimu_to_imu_raw, convert_rawimu_to_imu_aux", "c/nov2sbp/src/nov2sbp.cc: write_sbp_raw_imu"]}
{"id": "C63", "title": "NovAtel GPS ephemerides keep every parameter", "statement": "A GPSEPHEM log becomes exactly one GPS ephemeris message: angles and rates bit for bit, clock and harmonic terms rounded to float, square roots of A and of the URA variance, whole seconds of toe and toc, week, health, IODE and IODC. GLONASS ephemerides and logs of other types have no effect, then or later; nothing but a GPSEPHEM log makes an ephemeris.", "quantifier": "every log, every history", "why_tests_cant": "all values of all fields", "anchors": ["c/nov2sbp/src/swiftnav_conversion_helpers.cc: convert_gpsephem_to_ephemeris_gps", "c/nov2sbp/src/nov2sbp.cc: write_sbp_gps_ephem"]}
{"id": "C64", "title": "Base station positions survive the trip SBP to RTCM to SBP, and any 1005 or 1006 gives the position in its fields", "statement": "Over any history of calls of the SBP-to-RTCM converter and any chunking of its bytes, the positions out of the RTCM-to-SBP converter are those that went in, one for one and in order, each coordinate rounded to 0.1 mm, with the sender made from the low 12 bits of the original; the antenna height and descriptors last set are what a decoder reads from the 1006, 1008 and 1033 messages that go with a position. Any 1005 or 1006 message gives exactly the position in its fields, and a truncated one gives nothing.", "quantifier": "all histories of positions, biases, text, wrapped messages and settings; all chunkings; all states of the receiving converter, with or without time; all payloads", "why_tests_cant": "unbounded histories, 38-bit fields, composition of five layers", "anchors": ["c/gnss_converters_extra/src/sbp_rtcm3.c: sbp2rtcm_base_pos_ecef_cb, sbp_to_rtcm3_1005, sbp_to_rtcm3_1006, generate_rtcm3_1033, rtcm3_1033_to_1008, sbp2rtcm_set_ant_height, sbp2rtcm_set_rcv_ant_descriptors, encode_rtcm3_frame", "c/gnss_converters/src/rtcm3_sbp.c: rtcm2sbp_decode_payload, rtcm3_1005_to_sbp, rtcm3_1006_to_sbp", "c/librtcm/src/decode.c: rtcm3_decode_1005_base, rtcm3_decode_1006_bitstream"]}
{"id": "C65", "title": "GLONASS code-phase biases keep their values; estimates from the receiver name give way to transmitted biases", "statement": "While the time is known, every bias message sent over RTCM comes out with the same mask and, exactly, the biases of the signals in the mask; any 1230 message gives the 16-bit fields its mask announces, and a truncated one nothing. A 1033 message gives an estimate exactly when no 1230 message was converted in the last 120 s, and the estimate is that of the first entry of the receiver table whose text occurs in the receiver descriptor.", "quantifier": "all histories, all payloads, all descriptors", "why_tests_cant": "unbounded histories; 2^68 bias messages; all strings", "anchors": ["c/gnss_converters/src/rtcm3_sbp.c: rtcm3_1230_to_sbp, rtcm3_1033_to_sbp, no_1230_received, rtcm2sbp_decode_payload", "c/gnss_converters_extra/src/sbp_rtcm3.c: sbp2rtcm_glo_biases_cb, sbp_to_rtcm3_1230", "c/librtcm/src/decode.c: rtcm3_decode_1230_bitstream, rtcm3_decode_1033_bitstream"]}
{"id": "C66", "title": "Text messages come through, cut at a character boundary; the warning about MSM1-3 is sent once", "statement": "Over any history and chunking, log texts sent over RTCM 1029 come out one for one and in order behind 'RTCM: ', whole up to 248 bytes, else cut to as many whole UTF-8 characters as fit 254 bytes. After any history, the first MSM1-3 message gives one warning from its station, and no later one does.", "quantifier": "all histories, all texts", "why_tests_cant": "unbounded histories, all UTF-8 strings around the limit", "anchors": ["c/gnss_converters/src/rtcm3_sbp.c: send_1029, send_sbp_log_message, send_MSM_warning", "c/gnss_converters_extra/src/sbp_rtcm3.c: sbp2rtcm_sbp_log_cb"]}
{"id": "C67", "title": "SBP messages wrapped in RTCM 4062 come out as they went in", "statement": "Over any history and chunking, every message passed on in an RTCM 4062 comes out with its type, its 16-bit sender and the message that libsbp decodes from the very bytes sent, in order, with or without a known time, and nothing else of the kind comes out. Any 4062 message gives the message in its fields; one with reserved bits set, or truncated, gives nothing.", "quantifier": "all histories, chunkings, receiver states, payloads", "why_tests_cant": "unbounded histories, all payloads of up to 255 bytes", "anchors": ["c/gnss_converters_extra/src/sbp_rtcm3.c: sbp2rtcm_osr_cb and the six other SSR callbacks, encode 4062", "c/gnss_converters/src/rtcm3_sbp.c: rtcm2sbp_decode_payload case 4062", "c/librtcm/src/decode.c: rtcm3_decode_4062_bitstream"]}
{"id": "C68", "title": "Navigation data frames (RTCM 4075) give the SBAS messages they carry and nothing else", "statement": "A 4075 message that holds the frames it announces is decoded to exactly those frames, each with the system, signal, satellite, epoch, flags and data words at its place; every SBAS L1 frame gives one raw-SBAS message with its satellite, its time and the 27 bytes of its bits, in order, while the time is known, and no other frame gives a message. A message with the reserved bits set or with too many frames gives nothing.", "quantifier": "all payloads with any number of frames of any size, all states", "why_tests_cant": "frames of variable size at arbitrary bit offsets; up to 63 frames", "anchors": ["c/librtcm/src/decode.c: rtcm3_decode_4075_bitstream", "c/gnss_converters/src/rtcm3_sbp.c: handle_navigation_data_frame, rtcm2sbp_decode_payload case 4075"]}
{"id": "C69", "title": "The STA proprietary messages (RTCM 999) are decoded within the message and within the caller's arrays", "statement": "The RF status, firmware version and receiver configuration decoders accept exactly the messages of their type, give the values and texts at their places, read nothing behind the message and write nothing behind the caller's array.", "quantifier": "all payloads, all stated lengths, all sizes of the caller's array", "why_tests_cant": "every combination of lengths and contents, and reads of memory the message does not own", "anchors": ["c/librtcm/src/sta_decode.c: rtcm3_sta_decode_rfstatus, rtcm3_sta_decode_fwver, rtcm3_sta_decode_rcc_config"]}
{"id": "C70", "title": "The SBP-to-RTCM library returns the converted bytes completely and in order", "statement": "Over any history of calls, with any amount of room in each, the bytes returned are the frames the callbacks wrote, complete, in order and without a gap, as long as they are fetched in time; messages of other types change nothing; positions, OSR and SSR messages and texts given to the library come out of the RTCM-to-SBP converter at the other end of the stream.", "quantifier": "all histories of calls, all message types, all sizes of the caller's buffer, all chunkings", "why_tests_cant": "unbounded histories; the backlog depends on all earlier calls", "anchors": ["c/gnss_converters_extra/src/sbp_conv.c: sbp_conv_new, sbp_conv, sbp_conv_cb"]}
{"id": "C71", "title": "Ephemerides survive the RTCM stream", "statement": "SBP ephemerides of GPS, GLONASS, BeiDou and Galileo given to the SBP-to-RTCM converter, mixed in any order with each other and with any other messages, and sent as one byte stream cut into chunks in any way, come out of the RTCM-to-SBP converter: one for each, in order, of the same constellation, with the same satellite, times, health, issue numbers, accuracy and fit interval, and with every orbit and clock value within half a unit of the resolution of its RTCM field.", "quantifier": "all ephemerides whose values fit the RTCM fields, all interleavings, all chunkings, all states of the receiver", "why_tests_cant": "floating-point values and histories are unbounded; each value passes two conversions and a bit field", "anchors": ["c/gnss_converters_extra/src/sbp_rtcm3.c: sbp2rtcm_sbp_gps_eph_cb, sbp2rtcm_sbp_glo_eph_cb, sbp2rtcm_sbp_bds_eph_cb, sbp2rtcm_sbp_gal_eph_cb", "c/gnss_converters_extra/src/sbp_rtcm3_ephemeris.c", "c/gnss_converters/src/rtcm3_sbp.c: rtcm2sbp_decode_payload", "c/gnss_converters/src/rtcm3_sbp_ephemeris.c", "c/librtcm/src/eph_encode.c, eph_decode.c"]}
{"id": "C72", "title": "Observations survive the RTCM stream bit-exactly", "statement": "SBP observation messages given to the SBP-to-RTCM converter and sent as MSM4 or MSM5 frames, mixed with any other messages on one byte stream cut into chunks in any way, come out of the RTCM-to-SBP converter as SBP observation messages: one well-formed group for each epoch, in order, with the time and station of the epoch, holding every delivered observation exactly once with exactly the same pseudorange, carrier phase, Doppler (MSM5), lock time and validity flags, and the signal to noise ratio to half a dB-Hz.", "quantifier": "all epochs of up to 210 observations of GPS, GLONASS, Galileo, BeiDou and QZSS signals whose values fit MSM, all interleavings with other messages, all chunkings, all states of the receiver with an empty buffer", "why_tests_cant": "values, epochs and histories are unbounded; exactness of each value depends on rounding in two conversions and two bit fields", "anchors": ["c/gnss_converters_extra/src/sbp_rtcm3.c: sbp2rtcm_sbp_obs_cb, sbp_buffer_to_msm, encode_rtcm3_payload, encode_rtcm3_frame", "c/librtcm/src/encode.c, decode.c: MSM", "c/gnss_converters/src/rtcm3_sbp.c: rtcm2sbp_decode_payload, add_msm_obs_to_buffer, send_observations, compute_gps_message_time, compute_glo_time"]}
{"id": "C73", "title": "The program rtcm3tosbp keeps track of time over streams of any length", "statement": "Started with a time (-w, -d, -s), with or without -o, rtcm3tosbp takes that time, converted to GPS time, as its own; reading a stream of observation epochs, ephemerides and other messages in reads of any size, it writes for each epoch its group of SBP observation messages with exact time and values and for each ephemeris one SBP ephemeris, in order. With -o its clock follows the epochs, so consecutive epochs less than half a day apart are converted however far the stream leads from the start time; otherwise it follows the healthy GPS ephemerides and never goes back.", "quantifier": "all streams (any number, order and content of fitting epochs, ephemerides and other messages), all divisions into reads, all start times, both time modes", "why_tests_cant": "the clock is updated by the program's own output, so whether a message is converted depends on the whole history before it", "anchors": ["c/rtcm3tosbp/src/rtcm3tosbp.c: main, cb_rtcm_to_sbp, update_obs_time, time2gps_apply_offset", "c/gnss_converters/src/rtcm3_sbp.c: rtcm2sbp_process, rtcm2sbp_decode_payload", "c/gnss_converters/src/time_truth.c: time_truth_update, time_truth_update_from_sbp"]}
{"id": "C74", "title": "sbp2rtcm | rtcm3tosbp gives back what it was given", "statement": "When the output of sbp2rtcm is read by rtcm3tosbp (started with a time), the second program writes, in order and without anything else: for each complete epoch of SBP observation messages a group of SBP observation messages with the same time, station and values; for each ephemeris (GPS, GLONASS, BeiDou, Galileo) one with the same values to the resolution of RTCM; for each base position one to 0.1 mm; for each GLONASS bias message the same biases; for each OSR or SSR message the same message; for each text the text with its prefix. It does so for any number and order of messages, however the pipe divides the bytes, and whatever the uninitialised members of the converter state hold.", "quantifier": "all sequences of SBP messages (any number, kind and order; complete epochs), all divisions of the byte stream into reads, all system times and start times, both time modes of rtcm3tosbp, all contents of uninitialised memory", "why_tests_cant": "the result depends on the history on both sides (observation buffer and sender of one program; clock, channel table, GLONASS biases of the other) and on how the stream is divided", "anchors": ["c/sbp2rtcm/src/sbp2rtcm.c: sbp2rtcm_main", "c/gnss_converters_extra/src/sbp_rtcm3.c: sbp2rtcm_init, sbp2rtcm_sbp_obs_cb, sbp2rtcm_sbp_gps_eph_cb, sbp2rtcm_base_pos_ecef_cb, sbp2rtcm_glo_biases_cb, sbp2rtcm_sbp_log_cb, sbp2rtcm_set_glo_fcn", "c/rtcm3tosbp/src/rtcm3tosbp.c: main", "c/gnss_converters/src/rtcm3_sbp.c: rtcm2sbp_decode_payload"]}
{"id": "C75", "title": "Whatever bytes it reads, rtcm3tosbp fails no assertion and leaves none of its arrays", "statement": "For every byte stream, valid RTCM or not, however it is divided into reads, and every start time, the conversion of observations by rtcm3tosbp fails none of its assertions (counts of observations and messages, validity of the times it computes, indices of signals and satellites, kinds of warnings) and accesses no array outside its bounds (satellites, signals and cells of a decoded message, observation buffer, GLONASS channel table, warning flags, payload), and it writes what the converter specification (C20 to C25) says.", "quantifier": "all byte streams and their divisions into reads, all start times, with and without option -o, all option tables", "why_tests_cant": "an assertion or overflow may need a particular history of clock, buffer and channel table and a particular combination of masks; tests run a few recorded streams", "anchors": ["c/rtcm3tosbp/src/rtcm3tosbp.c: main, cb_rtcm_to_sbp, update_obs_time", "c/gnss_converters/src/rtcm3_sbp.c: rtcm2sbp_decode_payload, add_gps_obs_to_buffer, add_glo_obs_to_buffer, add_obs_to_buffer, add_msm_obs_to_buffer, send_observations, compute_gps_time, get_sid_from_msm, send_unsupported_code_warning", "c/librtcm/src/decode.c: rtcm3_decode_msm_internal, rtcm3_read_msm_header", "c/gnss_converters/src/rtcm3_utils.c: msm_signal_to_code, msm_sat_to_prn, msm_get_glo_fcn"]}
{"id": "C76", "title": "ubx2sbp and ixcom2sbp convert their whole input and end with it", "statement": "Run on any input, in pieces of any size, ubx2sbp and ixcom2sbp terminate when the input ends (end of file, an empty read or a read error), and by then have written exactly the messages of the frames of the input, in order, each converted with the state the previous frames left; ubx2sbp skips anything that is not a frame, ixcom2sbp noise between frames and the beginning of a last frame. How the input is divided into reads and how it ends make no difference.", "quantifier": "all inputs (for ixcom2sbp: all sequences of frames with noise between them and an incomplete last frame), all divisions into reads, all ways of ending, with and without --hnr", "why_tests_cant": "the loop ends on a return value that the frame reader computes from read results, partial frames, bad checksums and lengths; tests run a few recorded files read in full blocks", "anchors": ["c/ubx2sbp/src/ubx2sbp.c: ubx2sbp_main", "c/ixcom2sbp/src/ixcom2sbp.c: ixcom2sbp_main", "c/gnss_converters/src/ubx_sbp.c: ubx_sbp_process", "c/gnss_converters/src/ixcom_sbp.c: ixcom_sbp_process"]}
{"id": "C77", "title": "The options of rtcm3tosbp do what its help says", "statement": "Whatever options a command line gives, in whatever order and notation (joined flags, argument attached, after = or as the next word), rtcm3tosbp starts with exactly these settings: the named constellations disabled, the given signal and GLONASS biases (the last value of a code counts), the time given last, and the time source; an impossible time, or -o without a time, makes it refuse to start. No observation of a disabled constellation is sent, whatever arrives.", "quantifier": "all command lines made of documented options, all texts of their arguments, all later input", "why_tests_cant": "the option letters combine and repeat without bound and the effect of a disabled constellation must hold for every later message; the tests run the converter with two or three fixed option sets", "anchors": ["c/rtcm3tosbp/src/rtcm3tosbp.c: rtcm3tosbp_main", "c/gnss_converters/src/options.c: rtcm2sbp_options", "c/gnss_converters/src/rtcm3_sbp.c: no_observations, is_msm_active"]}
{"id": "C78", "title": "Legacy observations survive the RTCM byte stream", "statement": "When sbp2rtcm sends GPS and GLONASS epochs as legacy messages (1004 and 1012), mixed with any other messages, and the bytes reach rtcm3tosbp cut into chunks in any way, the receiver outputs one group of SBP observation messages for each epoch that has observations, in the order sent, with the epoch's time and station; the group holds each carried observation exactly once, with the same satellite, signal, carrier phase and signal-to-noise, the pseudorange to 2 cm and a lock time that is not overstated.", "quantifier": "all sequences of epochs at increasing times, all sets of observations, all other messages between the epochs, all divisions of the bytes into chunks, all earlier states of the receiver", "why_tests_cant": "pseudorange, ambiguity, phase difference and C/N0 are requantised through doubles, a GLONASS time of day loses day and leap seconds, and GPS and GLONASS messages of an epoch are joined by the sync flag and the receiver's state; tests compare a handful of recorded epochs", "anchors": ["c/gnss_converters_extra/src/sbp_rtcm3.c: sbp_buffer_to_rtcm3, sbp_obs_to_freq_data", "c/librtcm/src/encode.c: rtcm3_encode_1004, rtcm3_encode_1012, encode_diff_phaserange", "c/librtcm/src/decode.c: rtcm3_decode_1004, rtcm3_decode_1012", "c/gnss_converters/src/rtcm3_sbp.c: rtcm2sbp_decode_payload, add_gps_obs_to_buffer, add_glo_obs_to_buffer, send_observations"]}
{"id": "C79", "title": "Speed, course and error ellipse in the NMEA sentences are those of the solution", "statement": "Whatever the velocity, the speed in VTG and RMC sentences is the ground speed in knots and km/h to half a printed unit and the course is the direction of the velocity, in all four quadrants. Whatever the covariance matrix, the semi-axes in a GST sentence are the square roots of the greatest and least variance in any direction, the orientation is the direction of the greatest variance, the standard deviations are the square roots of the variances, and none of them is 'nan'.", "quantifier": "all velocities, all positive semidefinite covariance matrices with a horizontal variance between 1 mm\u00b2 and 10^12 m\u00b2, every square root and arc tangent as accurate as IEEE-754 and glibc make them", "why_tests_cant": "the values go through float and double arithmetic and transcendental functions, with cancellation for nearly circular and nearly singular ellipses and a quadrant decision for the course; the tests compare a few recorded sentences", "anchors": ["c/gnss_converters/src/nmea.c:calc_cog_sog", "c/gnss_converters/src/nmea.c:send_gpvtg", "c/gnss_converters/src/nmea.c:send_gprmc", "c/gnss_converters/src/nmea.c:send_gpgst", "c/gnss_converters/include/gnss-converters/nmea.h:MS2KNOTS"]}
{"id": "C80", "title": "Everything given to the sbp_conv library reaches the receiver", "statement": "A program feeds SBP observations, ephemerides, base positions, OSR and SSR messages, texts and other messages in any order to sbp_conv and passes the returned bytes, cut in any way, to rtcm3tosbp. As long as the bytes are fetched in time (at no call more than 2048 bytes written but not yet returned), no assertion fails in the library and rtcm3tosbp writes, for each message or complete epoch, in order, exactly the corresponding SBP messages and nothing else. If every call has room for 2048 bytes and no call writes more than that, the bytes are fetched in time. No call ever returns more than 2048 bytes.", "quantifier": "all sequences of calls and buffer sizes, all messages that fit their fields, all divisions of the byte stream into reads, all contents of uninitialised memory on both sides, all system and start times", "why_tests_cant": "it is a statement about every history of calls, of every length, through both converters, the FIFO and the framing layer; losses appear only for particular combinations of message sizes and fetching patterns", "anchors": ["c/gnss_converters_extra/src/sbp_conv.c: sbp_conv_new, sbp_conv, sbp_conv_cb", "c/gnss_converters_extra/src/sbp_rtcm3.c", "c/gnss_converters/src/rtcm3_sbp.c: rtcm2sbp_decode_payload", "c/rtcm3tosbp/src/rtcm3tosbp.c"]}
{"id": "C81", "title": "The numbers of GGA and PUBX sentences are those of the solution", "statement": "A GGA sentence sent with a fix carries the number of satellites, the horizontal dilution of precision of the DOPS message (GNSS mode) or solution metadata (fused mode) to half a tenth, the height above the geoid and the geoid height to half a centimetre and, for a differential, floating or fixed solution, exactly the age of the corrections and the station number. A PUBX sentence carries the height above the ellipsoid, the horizontal and vertical standard deviations of the covariance matrix to half a decimetre, the ground speed in km/h, the course, the velocity downwards in m/s, the age of the corrections, the dilutions of precision, the number of satellites and the dead-reckoning flag, each in its own field and blank exactly when it does not apply.", "quantifier": "all positions, velocities, covariance matrices with non-negative variances, DOPS, ages and solution modes", "why_tests_cant": "The values pass through float and double arithmetic, two roundings and a printf into fixed field positions that depend on the solution mode; a swapped field or a wrong unit shows only for particular combinations.", "anchors": ["c/gnss_converters/src/nmea.c:send_gpgga", "c/gnss_converters/src/nmea.c:send_pubx"]}
{"id": "C82", "title": "A received message that is re-encoded says the same at the next hop", "statement": "Whatever payload a decoder accepts - whether or not this library produced it - encoding the decoded message again and decoding the result gives the same message. For the Beidou ephemeris all its bits, and for the antenna and receiver descriptors, texts and proprietary payloads all its bytes, go out as they came in; station coordinates, antenna heights and code-phase biases do not drift by going through floating point.", "quantifier": "all payloads (any bytes, any length) accepted by the decoders of 1005, 1006, 1007, 1008, 1019, 1020, 1029, 1033, 1042, 1045, 1046, 1230 and 4062, and any previous contents of the output buffer", "why_tests_cant": "A relay sees payloads from foreign encoders: reserved bits, values at the ends of the signed ranges, negative zeros, coordinates that round badly. Tests start from messages of the library's own encoders.", "anchors": ["c/librtcm/src/decode.c:rtcm3_decode_1005_bitstream", "c/librtcm/src/encode.c:rtcm3_encode_1005", "c/librtcm/src/eph_decode.c", "c/librtcm/src/eph_encode.c"]}
{"id": "C83", "title": "A received MSM4 or MSM5 observation message is relayed exactly", "statement": "Whatever MSM4 or MSM5 payload the decoder accepts (with at most 32 satellites, the size of the encoder's satellite arrays), encoding the decoded message and decoding the result gives exactly the same message: header, masks, GLONASS channels, ranges, phases, range rates, lock times, half-cycle flags and signal to noise ratios, and which of them are valid, to the last bit of the doubles. A decoded MSM6 or MSM7 message is never written as something else: the encoders write nothing and report zero bytes.", "quantifier": "all payloads (any bytes, any length) the MSM4 and MSM5 decoders accept with at most 32 satellites, and any previous contents of the output buffer", "why_tests_cant": "The rough and fine parts are split again by floor, round and a comparison with an invalid marker; a value one unit from the marker, a rough range of 255 ms or a Doppler that rounds differently after division by 0.0001 would drift or vanish at one hop. Tests start from messages of the library's own encoders.", "anchors": ["c/librtcm/src/decode.c:rtcm3_decode_msm_internal", "c/librtcm/src/encode.c:rtcm3_encode_msm_internal"]}
