{
 "C04": "The framing is proved for payloads of 1..1017 bytes; C04_frame_buffer_overflow_bug shows that a 1018..1023-byte payload overruns the frame buffer.",
 "C19": "An unsupported signal code indexes one past the signal mask (C19_unsupported_code_bug); all other claims hold.",
 "C09": "PARTIAL: The encoder loses the bias indicator (C09_bias_indicator_bug), so the full round trip is false of the code; everything else in the message is proved to survive.",
 "C05": "rtcm_getbits with len=32 on a negative value is a signed overflow in C (C05_getbits_overflow_bug).",
 "C10": "PARTIAL: Full round trip holds for 1020, 1042 and the 1044 layout (decode only: there is no 1044 encoder). For 1019 decoded toe/toc come back exchanged (C10_1019_toe_toc_bug), so the round trip holds iff toe = toc; for 1045/1046 it holds iff the top health bit is clear (C10_1045_health_bug, C10_1046_health_bug).",
 "C11": "PARTIAL: Proved for up to 31 carried satellites; with 32 the satellite count wraps to 0 (C11_32_sats_lost_bug). Every double operation rounds as in IEEE-754 (bounds widened by a micrometre). The phase must be within 1000 km of the pseudorange because the code keeps the difference in an int32_t before rolling it over (C11_phase_wrap_bug). Further code bugs: the invalid-pseudorange pattern is never recognised, the L2 phase of 1012 ignores an unknown channel, an invalid CNR is transmitted as valid; the code indicators are always transmitted as 0, so P-code observations come back as C/A (C11_code_indicator_bug); the round trip assumes CNR 0 when it is flagged invalid.",
 "C12": "Masks with more than 64 cells or more than 32 satellites overrun the decoder's arrays (C12_too_many_sats_bug, C12_cell_mask_overflow_bug); the round trip is proved for every message within those limits.",
 "C13": "Double operations round as in IEEE-754 (range rates and the fine fields); C13_doubles shows that everything else decoded is exact. A satellite whose rough range rounds up to a whole light-millisecond past the millisecond count is encoded one millisecond short (C13_rough_range_bug); the round trip hypothesis excludes exactly that case.",
 "C14": "PARTIAL: Full for station messages, ephemerides, legacy and MSM observations, SSR orbit and biases. False of the code for 1006 (C14_1006_truncated_bug), SSR clock and combined messages (C14_ssr_clock_truncated_bug, C14_orbit_as_orbit_clock_bug) and the error code of Galileo (C14_galileo_code_bug). The proprietary 999/4075 decoders work on raw pointers without a length and are not covered.",
 "C21": "PARTIAL: Two clauses are false of the code: an older GLONASS epoch is sent after a newer GPS epoch (C21_order_bug; strict order is proved for streams without GLONASS legacy/MSM messages) and epochs of different weeks with the same time of week are merged (C21_week_mix_bug). Boundedness, no fabrication, no loss and dropping of stale messages hold for every history.",
 "C24": "C24_week_rounding_bug shows that the float comparison lets the published time step back by less than 1/32 s; the statement allows exactly that.",
 "C25": "An MSM1-3 message with a cleared multiple-message bit makes the converter send an empty observation message even without time (C25_empty_obs_bug); the theorem says such messages carry no observation.",
 "C26": "PARTIAL: Proved: messages are paired exactly when they are successive messages of one constellation with equal epoch and IOD SSR, and every output combines the fields of its own corrections. False of the code: provider, solution and update interval are not compared (C26_provider_bug); satellites are lost when there are more clock than orbit corrections (C26_dropped_bug); an uninitialised cache is used (C26_uninitialised_bug); a BeiDou epoch beyond a week is accepted (C26_bds_epoch_bug); 10-bit Galileo issues are cut to 8 bits (C26_galileo_iod_bug).",
 "C28": "PARTIAL: Boundedness, no mixing of times, conservation and completeness are proved for every history in which one sender's well-formed messages arrive. False of the code: observations of a second sender are mixed in (C28_sender_mix_bug), a header announcing zero messages (C28_zero_size_bug) and a truncated payload (C28_short_payload_bug) break the assembly. The int overflow of the week difference times seconds per week is not modelled.",
 "C29": "PARTIAL: Proved for every epoch the messages can carry. False of the code: SBAS observations and illegal satellite numbers abort (C29_sbas_bug, C29_invalid_sat_bug), duplicates abort (C29_duplicate_bug), and more than 64 cells corrupt other cells (C29_overwrite_bug).",
 "C49": "Proved for every epoch with at most 32 satellites per constellation, at most one first-frequency observation per satellite and GLONASS numbers within the table; C49_33_sats_bug and C49_glo_sat_bug show that the code leaves its arrays otherwise.",
 "C30": "PARTIAL: Every index of all four systems survives the conversion to metres and back in IEEE float arithmetic (assuming log2f exact at powers of two), SISA conversion is to the nearest index, GPS fit intervals are those of IS-GPS-200 and the flag survives. False of the code: GPS accuracies between table values are rounded to a smaller accuracy (C30_understates_bug); accuracies from 16384 m overflow the 4-bit index (C30_index_overflow_bug); GLONASS P1 = 3 comes back as 0 (same interval).",
 "C51": "C51_values covers every payload, composed with the decoders of C11/C12 and the offered observations of C21; every double operation of the conversion rounds as in IEEE-754 (bounds widened by 1 micrometre and 4e-6 cycles); so do the decoders. For any payload at all only a negative pseudorange and, in MSM messages, 63.875 dB-Hz or a Doppler beyond 32768 Hz can fail to fit (C51_fits, C51_legacy_fits, C51_any). C51_cn0_overflow_bug: 63.94 dB-Hz does not fit the SBP field, hence InRange; C51_doppler_overflow_bug: nor does a Doppler beyond 32768 Hz (MSM5 and MSM7 can express 43 kHz on L1), hence Carries.fits needs InRange.dop.",
 "C50": "PARTIAL: GPS and Galileo ephemerides are carried exactly into SBP and back (GPS weeks are replaced by the rover's resolved week; the L2 code/data fields have no SBP counterpart; the 1019 toe/toc swap is C10's). False of the code: QZSS with IODC >= 256 is flagged by the wrong bits (C50_qzss_valid_bug), BeiDou toe or toc at the week start comes back as the end of the previous week (C50_bds_week_start_bug), GLONASS t_b = 0 does not survive (C50_glo_midnight_bug); BeiDou and GLONASS round trips are proved outside those points.",
 "C31": "PARTIAL: C31_wellformed and C31_complete cover every sentence of every run (PUBX content completeness excepted). C31_pubx_partial: PUBX keeps the well-formed envelope, but C31_pubx_truncated_bug shows a run whose PUBX loses its last field because the 120-byte buffer is too small.",
 "C32": "C32_nan_bug shows that a NaN coordinate aborts the program; the theorems cover all finite coordinates.",
 "C33": "C33_leap_event_bug shows a leap second rounded up when none is announced; the theorems state the carry exactly.",
 "C36": "PARTIAL: C36_ths (all 32-bit yaws) and the course and indicator fields are full; HDT is in [0,360) up to 359.994 degrees (C36_hdt_partial) and prints 360.00 above (C36_hdt_360_bug); an unassigned solution mode 7 aborts (C36_undefined_mode_bug).",
 "C34": "PARTIAL: GSA and GSV list every satellite of their talker with the number, elevation, azimuth and C/N0 asked for, in order and complete; missing: GSA drops the 13th and later satellites of a constellation (C34_gsa_thirteenth_bug) and QZSS satellites are numbered outside the NMEA range (C34_qzss_number_bug).",
 "C35": "PARTIAL: proved for every history: GNSS sentences are coherent (C35_coherent), made from the latest messages at the requested rate (C35_content), at most once per epoch while the source stays the same and its UTC times do not go back (C35_once, C35_once_per_call), and sent whenever due (C35_complete); the claim fails on the fused path (C35_fused_incoherent_bug: nothing but the UTC time is checked), across the switch of source (C35_mode_switch_repeat_bug), for a requested fused mode (C35_fused_mode_bug) and for a first epoch at time of week 0.",
 "C37": "C37_stalled_read_bug: a read of zero bytes in the middle of a frame loses the bytes already consumed (the theorem requires that the stream delivers at least one byte per read until its end); C37_resync_bug: a corrupted length swallows the following frame.",
 "C39": "All 13 message types of libubx. C39_encode_overrun_bug: the RXM-SFRBX encoder does not check the number of words (the decoder does).",
 "C40": "PARTIAL: soundness (latest part of each number, one issue of data, never reused, content decoded from exactly those words) and completeness (one round for Galileo, BeiDou, GLONASS; two for GPS) proved for every history; the libswiftnav ephemeris decoders are parameters. Negative theorems: GLONASS string 0 is undefined behaviour, Galileo pages of 8 words are ignored, Galileo word type 5 (which has no issue of data) may be arbitrarily old, SBAS time wraps in the first 1.12 s of a week.",
 "C41": "C41_lossless, C41_framed and C41_defined with IEEE double arithmetic; encode_lock_time is a parameter. Negative theorems: time 604800000 ms at the end of a week, a phase that does not fit is left indeterminate yet flagged valid, out-of-range pseudoranges are undefined behaviour, more than 210 measurements break the sequence byte.",
 "C42": "Proved for every value below the greatest integer of the field; above it the carry wraps the Doppler (and overflows for the phase): C42_carry_bug.",
 "C43": "All five parts are proved for every history; the time clauses assume libswiftnav's normalize/match-weeks behave as documented (SaneTime) and an uptime between 51 ms and 4294000 s (49.7 days; beyond that the model's double and uint32 arithmetic is not claimed). Float and double rounding are modelled.",
 "C44": "PARTIAL: messages, counts, times (at most one unit early) and definedness are proved for every history; the count of a wheel is proved to be its distance for one wheel and no wrap of its 22-bit counter (and verbatim while never in reverse). Negative theorems: 22-bit wraps, several wheels in reverse, and the wrap of the 32-bit millisecond counter break it; times may be 1 ms early. libswiftnav time functions assumed as documented (SaneTime).",
 "C52": "PARTIAL: position, attitude, high-rate selection and velocity are proved for every history, for angles within +-2147.48364 degrees (beyond, the int32 field of SBP cannot hold them). False of the code: the velocity accuracy is neither scaled to mm/s nor saturated (C52_accuracy_bug) and the static solution state is shared by all converters (C52_shared_bug).",
 "C53": "PARTIAL: everything but signal strengths of 64 dB-Hz and more, which wrap (C53_cn0_bug).",
 "C45": "PARTIAL: proved for streams whose frames are longer than the header, shorter than 4096 bytes and, for the two converted types, have the length of the type (Cut, Proper), and whose values can be converted (Sane; see C57); chunk independence is proved without the last two. False of the code otherwise: length fields below 16 or from 4096 make it read outside its buffer or abort, 16 stops it for ever, and a frame of a wrong length is checked against the CRC field of an older frame (C45_*_bug).",
 "C46": "For streams as in C45; seconds below 604800 and microseconds below 10^6.",
 "C57": "PARTIAL: for streams as in C45. A NaN and a speed beyond the int32 range are undefined behaviour in the code (C57_nan_bug, C57_speed_bug). Float rounding is modelled exactly; pi is Real.pi in the statement.",
 "C58": "Floats are their bit patterns. The encoder does not compute the CRC: it copies the field.",
 "C56": "The assembly of subframes into ephemerides is the one of C40, its numerical decoding of GPS/Galileo/GLONASS pages in libswiftnav is a parameter (EphLib). Conversions whose float-to-integer casts are undefined make the model return none and are excluded by the hypothesis that the run succeeds.",
 "C47": "PARTIAL: completeness holds for logs followed by at least 4096 more bytes of the file, of less than 4096 bytes and with a body of the length of its type. The rest is false of the code: C47_tail_bug (the last 4096 bytes are given up at the end of the file), C47_length_bug and C47_empty_bug (assertion failures), C47_full_bug, C47_split_bug.",
 "C60": "PARTIAL: totality of the position conversion is proved for standard deviations of at most 65 m (the rest is false: C60_accuracy_bug, undefined conversion); velocities up to 1000 km/s, angles up to 10000 degrees; NaN is undefined behaviour (C60_nan_bug). The flags of a velocity are right unless the last position is whole weeks old (C60_week_bug). Geoid separation and libm functions are parameters; cos and sin are assumed accurate to 1e-14.",
 "C63": "PARTIAL: totality for satellite numbers up to 255, weeks up to 65535 and times in [0, 2^32): otherwise the program stops (C63_abort_bug). sqrt is a parameter, assumed accurate to 2^-52.",
 "C59": "PARTIAL: completeness needs 4096 bytes after the logs and logs shorter than that (framing defects: C47_tail_bug, C47_full_bug, C47_split_bug) and values on which the program does not abort (C60_accuracy_bug, C60_nan_bug, C61_empty_bug, C62_error_bug, C63_abort_bug).",
 "C61": "PARTIAL: 1 to 63 records. False otherwise: an empty log is undefined behaviour (C61_empty_bug), records past 63 are dropped (C61_many_bug). The flags are not what the tracking status means: C61_phase_bug, C61_half_bug; GLONASS observations are dropped (C61_glonass_bug). The lock time encoding and sid_valid are parameters.",
 "C62": "PARTIAL: the acceleration of types 41, 61, 62 is a million times too large (C62_milligee_bug); IMU_AUX ignores the week and stops after a week rollover (C62_aux_bug); an IMU error flag stops the program (C62_error_bug).",
 "C55": "PARTIAL: within 49 days of start-up (ImuNormal); after the wrap of the 32-bit counter the offset is wrong (C55_wrap_bug). gps_time_match_weeks_safe and normalize_gps_time_safe of libswiftnav are parameters with the assumptions SaneTime.",
 "C64": "PARTIAL: a 1006 message truncated to 7, 8, 12, 13, 17 or 18 bytes is converted from uninitialised memory (C64_1006_short_bug); senders that differ in bit 7 collide (C64_sender_collision_bug).",
 "C65": "PARTIAL: the receiver descriptor of a 1033 message is not terminated and is searched past its end (C65_1033_bug); the theorem assumes that a zero byte follows in memory.",
 "C66": "PARTIAL: a text is cut inside a character of three or four bytes (C66_cut_bug); the sender of the warning is wrong (C66_warning_sender_bug).",
 "C67": "sbp_message_decode of libsbp is a parameter.",
 "C68": "PARTIAL: the decoder is not given the length and reads memory behind a message that announces more than it holds (C68_overread_bug); the last word of a 250-bit SBAS frame is right-aligned and its bits come out in the wrong place (C68_250_bug).",
 "C69": "PARTIAL: the RF status decoder accepts no message at all (C69_rfstatus_bug); a firmware text as long as the caller's array is terminated behind it (C69_fwver_bug). The configuration decoder is proved in full (C69_rcc).",
 "C70": "PARTIAL: when bytes are not fetched in time a frame is cut and its rest lost (C70_overflow_bug); GLONASS biases have no case (C70_other); observations and ephemerides are in C80. The FIFO of libswiftnav is assumed to be a queue that drops what has no room.",
 "C71": "PARTIAL: GPS only with toe = toc (else they come back exchanged: C71_gps_exchanged_bug); BeiDou not in the first 14 s of a week (C50_bds_week_start_bug), not geostationary, and both times in one week (C71_bds_week_bug); GLONASS not in the first interval of the day (C50_glo_midnight_bug) and only with a solved time; Galileo health without its top bit (C10_1045/1046_health_bug), and an unknown source is an assertion failure (C71_gal_source_bug).",
 "C72": "PARTIAL: MSM4 and MSM5 with legacy messages off; each phase within 800 m of its pseudorange (else it is dropped: C72_far_phase_bug), observations of a satellite within 140 m and 1.1 m/s of each other, the receiver's time within half a week (GLONASS: half a day, and within 30 s of the leap second offset unless the epoch has GPS observations), not tow 0 (C72_week_start_bug), not only QZSS (C72_qzss_bug); every double operation of both converters and of the MSM codec rounds as in IEEE-754, the carrier frequency is any number of at least 1 Hz.",
 "C73": "PARTIAL: the events must satisfy the conditions of C71 and C72 relative to the program's clock at that point; without a start time the default mode never learns the time (C73_no_time_bug); -o with a time before the reference week runs with an invalid clock (C73_old_week_bug); with -o GLONASS epochs a minute apart are lost (C73_glonass_minute_bug). Events with an observation or GPS ephemeris message wrapped in 4062 (it sets the clock) are left out. The command line is in C77; the SBP writer is not modelled; messages other than observations and ephemerides are in C74.",
 "C74": "PARTIAL: the items must satisfy `Fits`: the conditions of C71 to C73, epochs complete and not interleaved with other messages, values within their fields. sbp2rtcm never learns a GLONASS channel, so GLONASS phases and Dopplers are always lost (C74_glonass_phase_bug); it has no callback for QZSS ephemerides. Items with an observation or GPS ephemeris message wrapped in 4062, which sets the clock of rtcm3tosbp, are left out (sbp2rtcm wraps none). The SBP reader and writer (libsbp) are not modelled.",
 "C75": "PARTIAL: an MSM message that announces more than 32 satellites or 64 cells overflows the arrays of librtcm (C75_masks_bug); with -o a wrapped SBP observation message sets the clock to any value and the next observation message fails an assertion (C75_wrapped_clock_bug), as does a start time before the reference week (C75_old_week_bug). Conversions of floating point numbers to integer types too small for them are in C51 (Carries.fits, C51_doppler_overflow_bug), the arrays of the other messages in C03, C08, C14, C64 to C66; arrays of size 0 (a message without satellites or cells, decode.c:1220-1246) are not modelled.",
 "C76": "PARTIAL: an empty read ends ubx2sbp although more arrives (C76_ubx_pause_bug), a frame that is only a header ends ixcom2sbp (C76_ixcom_early_bug), and a header with an impossible length stops ixcom2sbp (C45_short_length_bug, C45_long_length_bug): hence UbxInput, IxcomInput and Cut. Not modelled: the command line, the bytes of the SBP frames and write errors, which both programs ignore.",
 "C77": "PARTIAL: -S swallows the next word (C77_sbas_bug), legacy messages and ephemerides of a disabled constellation still pass (C77_legacy_bug), a negative code writes before the bias table (C77_negative_code_bug), a date that does not exist is accepted (C77_date_bug): hence no -S in Line and the restriction to MSM in C77_disabled_partial. Not modelled: printed text and verbosity; sscanf, time(NULL) and the time functions of libswiftnav are parameters; getopt is GNU getopt.",
 "C78": "PARTIAL: the epochs must satisfy `EpochOk`, which leaves out what the code spoils: P codes come back as C/A (C78_pcode_bug), a satellite without a valid first-frequency phase is dropped with its pseudorange and second frequency (C78_no_phase_bug), a second frequency before its first is dropped (C78_order_bug), pseudoranges more than 163 m apart wrap around (C78_second_wrap_bug). Also left out: 32 satellites of one system, phases more than 261 m from the pseudorange, pseudorange pairs with a multiple of a light-millisecond between them, and a receiver with signal biases. Every double operation of both converters and of the codec rounds as in IEEE-754.",
 "C79": "PARTIAL: an ellipse that is long in the east-west direction can get orientation 0 instead of 90 degrees, the direction of its minor axis (C79_orientation_bug); `Tilted` leaves these out. A covariance matrix that is positive semidefinite before its entries are rounded to float can give a semi-minor axis of nan (C79_nan_bug); for entries that are positive semidefinite as sent it cannot (C79_minor_finite). Libm is assumed accurate as `Accurate` says (square roots correctly rounded, arc tangents to 2^-50); such functions exist (accurate_exists).",
 "C80": "PARTIAL: the items must satisfy `Fits` (as in C74: the conditions of C71 to C73, epochs complete and not interleaved with other messages), and the bytes must be fetched in time. That is not always possible: the FIFO of 2048 bytes is read only after all frames of a call were written, and a full epoch makes more (C80_epoch_bug: 2222 bytes for 196 observations). The library names its receiver \"SWFT\" after each position, for which rtcm3tosbp makes up a GLONASS bias message (C80_bias_bug). The decoding of SBP payloads (libsbp) is a parameter.",
 "C81": "With a fix and finite values; libm is assumed accurate (`Accurate`, as in C79). Sentences without a fix: C32_no_fix.",
 "C82": "PARTIAL: Exact for 1005, 1006, 1007, 1008, 1020, 1029, 1033, 1042, 1045, 1046 and 4062. For 1019 the two times come back exchanged (C82_gps_ephemeris_bug; restored by a second hop), for 1230 the bias indicator comes back 0 (C09_bias_indicator_bug); everything else in these two is exact. Observation messages are covered by C11-C13 from the encoder's side only.",
 "C83": "MSM4 and MSM5 with at most 32 satellites (see C12_too_many_sats_bug for more). MSM6 and MSM7 have no encoder: C83_high_resolution_not_written."
}
