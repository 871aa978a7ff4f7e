{
 "claims": [
  {
   "property": "C01",
   "status": "proved",
   "theorems": [
    "Verif.RtcmFraming.C01_chunking_independent",
    "Verif.RtcmFraming.C01_bytewise"
   ],
   "note": ""
  },
  {
   "property": "C02",
   "status": "proved",
   "theorems": [
    "Verif.RtcmFraming.C02_only_valid_frames",
    "Verif.RtcmFraming.C02_all_frames_decoded",
    "Verif.RtcmFraming.C02_frame_at_front",
    "Verif.RtcmFraming.C02_decode_frame_short_bug"
   ],
   "note": ""
  },
  {
   "property": "C03",
   "status": "proved",
   "theorems": [
    "Verif.RtcmFraming.C03_fifo_never_overflows",
    "Verif.RtcmFraming.C03_fifo_is_stream_suffix",
    "Verif.RtcmFraming.C03_overflow_restarts_empty"
   ],
   "note": ""
  },
  {
   "property": "C04",
   "status": "proved",
   "theorems": [
    "Verif.RtcmFraming.C04_frame_roundtrip",
    "Verif.RtcmFraming.C04_stream_roundtrip",
    "Verif.RtcmFraming.C04_frame_buffer_overflow_bug"
   ],
   "note": "The framing is proved for payloads of 1..1017 bytes; C04_frame_buffer_overflow_bug shows that a 1018..1023-byte payload overruns the frame buffer."
  },
  {
   "property": "C05",
   "status": "proved",
   "theorems": [
    "Verif.C05_unsigned_readback",
    "Verif.C05_unsigned_roundtrip",
    "Verif.C05_unsigned_long_roundtrip",
    "Verif.C05_write_exact",
    "Verif.C05_write_long_exact",
    "Verif.C05_disjoint_fields",
    "Verif.C05_signed_roundtrip",
    "Verif.C05_signed_long_roundtrip",
    "Verif.C05_signmag_roundtrip",
    "Verif.C05_signed_local",
    "Verif.C05_getbits_no_overflow",
    "Verif.C05_getbits_overflow_bug"
   ],
   "note": "rtcm_getbits with len=32 on a negative value is a signed overflow in C (C05_getbits_overflow_bug)."
  },
  {
   "property": "C06",
   "status": "proved",
   "theorems": [
    "Verif.C06_1005_roundtrip",
    "Verif.C06_1005_exact",
    "Verif.C06_1006_roundtrip"
   ],
   "note": ""
  },
  {
   "property": "C07",
   "status": "proved",
   "theorems": [
    "Verif.C07_1007_roundtrip",
    "Verif.C07_1008_roundtrip",
    "Verif.C07_1033_roundtrip",
    "Verif.C07_strings_bounded",
    "Verif.C07_long_string_rejected"
   ],
   "note": ""
  },
  {
   "property": "C08",
   "status": "proved",
   "theorems": [
    "Verif.C08_1029_roundtrip",
    "Verif.C08_4062_roundtrip"
   ],
   "note": ""
  },
  {
   "property": "C09",
   "status": "partial",
   "theorems": [
    "Verif.C09_1230_roundtrip_partial",
    "Verif.C09_bias_indicator_bug"
   ],
   "note": "The encoder loses the bias indicator (C09_bias_indicator_bug), so the full round trip is false of the code; everything else in the message is proved to survive."
  },
  {
   "property": "C10",
   "status": "partial",
   "theorems": [
    "Verif.C10_1019_partial",
    "Verif.C10_1019_roundtrip_partial",
    "Verif.C10_1019_toe_toc_bug",
    "Verif.C10_1042_roundtrip",
    "Verif.C10_1042_geo_rejected",
    "Verif.C10_1046_roundtrip_partial",
    "Verif.C10_1046_health_bug",
    "Verif.C10_1045_roundtrip_partial",
    "Verif.C10_1045_health_bug",
    "Verif.C10_1044_decodes_layout",
    "Verif.C10_1020_roundtrip"
   ],
   "note": "Full round trip holds for 1020, 1042 and the 1044 layout (decode only: there is no 1044 encoder). For 1019 decoded toe/toc come back exchanged (C10_1019_toe_toc_bug), so the round trip holds iff toe = toc; for 1045/1046 it holds iff the top health bit is clear (C10_1045_health_bug, C10_1046_health_bug)."
  },
  {
   "property": "C11",
   "status": "partial",
   "theorems": [
    "Verif.Obs.C11_obs_roundtrip_partial",
    "Verif.Obs.C11_32_sats_lost_bug",
    "Verif.Obs.C11_phase_wrap_bug",
    "Verif.Obs.C11_invalid_pr_ignored_bug",
    "Verif.Obs.C11_unknown_channel_l1",
    "Verif.Obs.C11_unknown_channel_l2_bug",
    "Verif.Obs.C11_invalid_cnr_bug",
    "Verif.Obs.C11_code_indicator_bug",
    "Verif.Obs.C11_ranges"
   ],
   "note": "Proved for up to 31 carried satellites; with 32 the satellite count wraps to 0 (C11_32_sats_lost_bug). Every double operation rounds as in IEEE-754 (bounds widened by a micrometre). The phase must be within 1000 km of the pseudorange because the code keeps the difference in an int32_t before rolling it over (C11_phase_wrap_bug). Further code bugs: the invalid-pseudorange pattern is never recognised, the L2 phase of 1012 ignores an unknown channel, an invalid CNR is transmitted as valid; the code indicators are always transmitted as 0, so P-code observations come back as C/A (C11_code_indicator_bug); the round trip assumes CNR 0 when it is flagged invalid."
  },
  {
   "property": "C12",
   "status": "proved",
   "theorems": [
    "Verif.Msm.C12_header_roundtrip",
    "Verif.Msm.C12_masks_roundtrip",
    "Verif.Msm.C12_accepted_consistent",
    "Verif.Msm.C12_too_many_sats_bug",
    "Verif.Msm.C12_cell_mask_overflow_bug"
   ],
   "note": "Masks with more than 64 cells or more than 32 satellites overrun the decoder's arrays (C12_too_many_sats_bug, C12_cell_mask_overflow_bug); the round trip is proved for every message within those limits."
  },
  {
   "property": "C13",
   "status": "proved",
   "theorems": [
    "Verif.Msm.C13_contents_roundtrip",
    "Verif.Msm.C13_invalid_rough",
    "Verif.Msm.C13_rough_range_bug",
    "Verif.Msm.C13_doubles",
    "Verif.Msm.C13_ranges"
   ],
   "note": "Double operations round as in IEEE-754 (range rates and the fine fields); C13_doubles shows that everything else decoded is exact. A satellite whose rough range rounds up to a whole light-millisecond past the millisecond count is encoded one millisecond short (C13_rough_range_bug); the round trip hypothesis excludes exactly that case."
  },
  {
   "property": "C14",
   "status": "partial",
   "theorems": [
    "Verif.Decoders.C14_station",
    "Verif.Decoders.C14_ephemeris",
    "Verif.Decoders.C14_galileo_partial",
    "Verif.Decoders.C14_galileo_code_bug",
    "Verif.Decoders.C14_1006_partial",
    "Verif.Decoders.C14_1006_truncated_bug",
    "Verif.Decoders.C14_legacy",
    "Verif.Decoders.C14_msm",
    "Verif.Decoders.C14_ssr_types",
    "Verif.Decoders.C14_ssr_truncation_partial",
    "Verif.Decoders.C14_ssr_clock_truncated_bug",
    "Verif.Decoders.C14_orbit_as_orbit_clock_bug",
    "Verif.Decoders.C14_minimal_size",
    "Verif.Decoders.C14_4062_reserved"
   ],
   "note": "Full for station messages, ephemerides, legacy and MSM observations, SSR orbit and biases. False of the code for 1006 (C14_1006_truncated_bug), SSR clock and combined messages (C14_ssr_clock_truncated_bug, C14_orbit_as_orbit_clock_bug) and the error code of Galileo (C14_galileo_code_bug). The proprietary 999/4075 decoders work on raw pointers without a length and are not covered."
  },
  {
   "property": "C15",
   "status": "proved",
   "theorems": [
    "Verif.Obs.C15_legacy_time_in_range",
    "Verif.Msm.C15_msm_time_in_range"
   ],
   "note": ""
  },
  {
   "property": "C16",
   "status": "proved",
   "theorems": [
    "Verif.Lock.C16_legacy_never_overstates",
    "Verif.Lock.C16_legacy_tight",
    "Verif.Lock.C16_legacy_indicator_roundtrip",
    "Verif.Lock.C16_legacy_monotone",
    "Verif.Lock.C16_legacy_decode_monotone",
    "Verif.Lock.C16_msm_never_overstates",
    "Verif.Lock.C16_msm_indicator_roundtrip",
    "Verif.Lock.C16_msm_monotone",
    "Verif.Lock.C16_msm_decode_monotone",
    "Verif.Lock.C16_msm_tight",
    "Verif.Lock.C16_ext_table",
    "Verif.Lock.C16_ext_monotone"
   ],
   "note": ""
  },
  {
   "property": "C17",
   "status": "proved",
   "theorems": [
    "Verif.Msm.C17_number_classified",
    "Verif.Msm.C17_classified_number",
    "Verif.Msm.C17_other_unknown",
    "Verif.Msm.C17_number_injective"
   ],
   "note": ""
  },
  {
   "property": "C18",
   "status": "proved",
   "theorems": [
    "Verif.Msm.C18_code_roundtrip",
    "Verif.Msm.C18_ids_injective",
    "Verif.Msm.C18_id_roundtrip",
    "Verif.Msm.C18_constellations_disjoint",
    "Verif.Msm.C18_prn_roundtrip",
    "Verif.Msm.C18_prn_injective",
    "Verif.Msm.C18_row_prn",
    "Verif.Msm.C18_unsupported_code",
    "Verif.RtcmSbp.C18_standard_signals"
   ],
   "note": ""
  },
  {
   "property": "C19",
   "status": "proved",
   "theorems": [
    "Verif.Msm.C19_nth_then_count",
    "Verif.Msm.C19_count_then_nth",
    "Verif.Msm.C19_additions",
    "Verif.Msm.C19_cells",
    "Verif.Msm.C19_unsupported_code_bug"
   ],
   "note": "An unsupported signal code indexes one past the signal mask (C19_unsupported_code_bug); all other claims hold."
  },
  {
   "property": "C20",
   "status": "proved",
   "theorems": [
    "Verif.RtcmSbp.C20_split",
    "Verif.RtcmSbp.C20_history"
   ],
   "note": ""
  },
  {
   "property": "C21",
   "status": "partial",
   "theorems": [
    "Verif.RtcmSbp.C21_bounded",
    "Verif.RtcmSbp.C21_no_fabrication",
    "Verif.RtcmSbp.C21_gps_complete",
    "Verif.RtcmSbp.C21_gps_stale_dropped",
    "Verif.RtcmSbp.C21_glo_stale_dropped",
    "Verif.RtcmSbp.C21_msm_complete",
    "Verif.RtcmSbp.C21_gps_order",
    "Verif.RtcmSbp.C21_order_bug",
    "Verif.RtcmSbp.C21_week_mix_bug"
   ],
   "note": "Two clauses are false of the code: an older GLONASS epoch is sent after a newer GPS epoch (C21_order_bug; strict order is proved for streams without GLONASS legacy/MSM messages) and epochs of different weeks with the same time of week are merged (C21_week_mix_bug). Boundedness, no fabrication, no loss and dropping of stale messages hold for every history."
  },
  {
   "property": "C22",
   "status": "proved",
   "theorems": [
    "Verif.Time.C22_nearest_week",
    "Verif.Time.C22_unique",
    "Verif.Time.C22_edge_weeks",
    "Verif.Time.C22_rejects"
   ],
   "note": ""
  },
  {
   "property": "C23",
   "status": "proved",
   "theorems": [
    "Verif.Time.C23_glo_time",
    "Verif.Time.C23_glo_total",
    "Verif.Time.C23_glo_needs_leap",
    "Verif.Time.C23_glo_tow",
    "Verif.Time.C23_glo_roundtrip",
    "Verif.Time.C23_glo_tow_unknown_leap_bug",
    "Verif.Time.C23_bds"
   ],
   "note": ""
  },
  {
   "property": "C24",
   "status": "proved",
   "theorems": [
    "Verif.TimeTruth.C24_never_back",
    "Verif.TimeTruth.C24_completed",
    "Verif.TimeTruth.C24_no_fabrication",
    "Verif.TimeTruth.C24_rejected",
    "Verif.TimeTruth.C24_true_published",
    "Verif.TimeTruth.C24_changes_only_by_success",
    "Verif.TimeTruth.C24_from_sbp",
    "Verif.TimeTruth.C24_week_rounding_bug"
   ],
   "note": "C24_week_rounding_bug shows that the float comparison lets the published time step back by less than 1/32 s; the statement allows exactly that."
  },
  {
   "property": "C25",
   "status": "proved",
   "theorems": [
    "Verif.RtcmSbp.C25_ignored",
    "Verif.RtcmSbp.C25_no_observation",
    "Verif.RtcmSbp.C25_no_observation_run",
    "Verif.RtcmSbp.C25_outputs",
    "Verif.RtcmSbp.C25_empty_obs_bug"
   ],
   "note": "An MSM1-3 message with a cleared multiple-message bit makes the converter send an empty observation message even without time (C25_empty_obs_bug); the theorem says such messages carry no observation."
  },
  {
   "property": "C26",
   "status": "partial",
   "theorems": [
    "Verif.SsrSbp.C26_pairing",
    "Verif.SsrSbp.C26_trace",
    "Verif.SsrSbp.C26_contents",
    "Verif.SsrSbp.C26_complete_partial",
    "Verif.SsrSbp.C26_no_time",
    "Verif.SsrSbp.C26_combined",
    "Verif.SsrSbp.C26_time",
    "Verif.SsrSbp.C26_time_glo",
    "Verif.SsrSbp.C26_epoch_range",
    "Verif.SsrSbp.C26_dropped_bug",
    "Verif.SsrSbp.C26_uninitialised_bug",
    "Verif.SsrSbp.C26_bds_epoch_bug",
    "Verif.SsrSbp.C26_galileo_iod_bug",
    "Verif.SsrSbp.C26_provider_bug"
   ],
   "note": "Proved: messages are paired exactly when they are successive messages of one constellation with equal epoch and IOD SSR, and every output combines the fields of its own corrections. False of the code: provider, solution and update interval are not compared (C26_provider_bug); satellites are lost when there are more clock than orbit corrections (C26_dropped_bug); an uninitialised cache is used (C26_uninitialised_bug); a BeiDou epoch beyond a week is accepted (C26_bds_epoch_bug); 10-bit Galileo issues are cut to 8 bits (C26_galileo_iod_bug)."
  },
  {
   "property": "C27",
   "status": "proved",
   "theorems": [
    "Verif.SsrSbp.C27_phase",
    "Verif.SsrSbp.C27_code",
    "Verif.SsrSbp.C27_no_time",
    "Verif.SsrSbp.C27_bounded",
    "Verif.SsrSbp.C27_dispatch"
   ],
   "note": ""
  },
  {
   "property": "C28",
   "status": "partial",
   "theorems": [
    "Verif.SbpRtcm.C28_bounded",
    "Verif.SbpRtcm.C28_no_mixing",
    "Verif.SbpRtcm.C28_conservation",
    "Verif.SbpRtcm.C28_complete",
    "Verif.SbpRtcm.C28_sender_mix_bug",
    "Verif.SbpRtcm.C28_zero_size_bug",
    "Verif.SbpRtcm.C28_short_payload_bug"
   ],
   "note": "Boundedness, no mixing of times, conservation and completeness are proved for every history in which one sender's well-formed messages arrive. False of the code: observations of a second sender are mixed in (C28_sender_mix_bug), a header announcing zero messages (C28_zero_size_bug) and a truncated payload (C28_short_payload_bug) break the assembly. The int overflow of the week difference times seconds per week is not modelled."
  },
  {
   "property": "C29",
   "status": "partial",
   "theorems": [
    "Verif.SbpRtcm.C29_last",
    "Verif.SbpRtcm.C29_messages",
    "Verif.SbpRtcm.C29_sbas_bug",
    "Verif.SbpRtcm.C29_invalid_sat_bug",
    "Verif.SbpRtcm.C29_duplicate_bug",
    "Verif.SbpRtcm.C29_overwrite_bug"
   ],
   "note": "Proved for every epoch the messages can carry. False of the code: SBAS observations and illegal satellite numbers abort (C29_sbas_bug, C29_invalid_sat_bug), duplicates abort (C29_duplicate_bug), and more than 64 cells corrupt other cells (C29_overwrite_bug)."
  },
  {
   "property": "C30",
   "status": "partial",
   "theorems": [
    "Verif.Acc.C30_gps_ura",
    "Verif.Acc.C30_glo_ura",
    "Verif.Acc.C30_bds_ura",
    "Verif.Acc.C30_sisa",
    "Verif.Acc.C30_sisa_nearest",
    "Verif.Acc.C30_fit_gps",
    "Verif.Acc.C30_fit_glo",
    "Verif.Acc.C30_understates_bug",
    "Verif.Acc.C30_index_overflow_bug"
   ],
   "note": "Every index of all four systems survives the conversion to metres and back in IEEE float arithmetic (assuming log2f exact at powers of two), SISA conversion is to the nearest index, GPS fit intervals are those of IS-GPS-200 and the flag survives. False of the code: GPS accuracies between table values are rounded to a smaller accuracy (C30_understates_bug); accuracies from 16384 m overflow the 4-bit index (C30_index_overflow_bug); GLONASS P1 = 3 comes back as 0 (same interval)."
  },
  {
   "property": "C31",
   "status": "partial",
   "theorems": [
    "Verif.Nmea.C31_wellformed",
    "Verif.Nmea.C31_complete",
    "Verif.Nmea.C31_pubx_partial",
    "Verif.Nmea.C31_pubx_truncated_bug"
   ],
   "note": "C31_wellformed and C31_complete cover every sentence of every run (PUBX content completeness excepted). C31_pubx_partial: PUBX keeps the well-formed envelope, but C31_pubx_truncated_bug shows a run whose PUBX loses its last field because the 120-byte buffer is too small."
  },
  {
   "property": "C32",
   "status": "proved",
   "theorems": [
    "Verif.Nmea.C32_position",
    "Verif.Nmea.C32_sentences",
    "Verif.Nmea.C32_no_fix",
    "Verif.Nmea.C32_nan_bug"
   ],
   "note": "C32_nan_bug shows that a NaN coordinate aborts the program; the theorems cover all finite coordinates."
  },
  {
   "property": "C33",
   "status": "proved",
   "theorems": [
    "Verif.Nmea.C33_carry",
    "Verif.Nmea.C33_leap_second",
    "Verif.Nmea.C33_string",
    "Verif.Nmea.C33_unknown",
    "Verif.Nmea.C33_leap_event_bug"
   ],
   "note": "C33_leap_event_bug shows a leap second rounded up when none is announced; the theorems state the carry exactly."
  },
  {
   "property": "C34",
   "status": "partial",
   "theorems": [
    "Verif.Nmea.C34_gsv_partial",
    "Verif.Nmea.C34_gsv_empty",
    "Verif.Nmea.C34_gsa_partial",
    "Verif.Nmea.C34_gsa_dops",
    "Verif.Nmea.C34_gsa_thirteenth_bug",
    "Verif.Nmea.C34_qzss_number_bug"
   ],
   "note": "GSA and GSV list every satellite of their talker with the number, elevation, azimuth and C/N0 asked for, in order and complete; missing: GSA drops the 13th and later satellites of a constellation (C34_gsa_thirteenth_bug) and QZSS satellites are numbered outside the NMEA range (C34_qzss_number_bug)."
  },
  {
   "property": "C35",
   "status": "partial",
   "theorems": [
    "Verif.Nmea.C35_coherent",
    "Verif.Nmea.C35_fused",
    "Verif.Nmea.C35_content",
    "Verif.Nmea.C35_once_per_call",
    "Verif.Nmea.C35_once",
    "Verif.Nmea.C35_complete",
    "Verif.Nmea.C35_rate",
    "Verif.Nmea.C35_period",
    "Verif.Nmea.C35_period_zero_bug",
    "Verif.Nmea.C35_first_epoch_zero_bug",
    "Verif.Nmea.C35_fused_incoherent_bug",
    "Verif.Nmea.C35_mode_switch_repeat_bug",
    "Verif.Nmea.C35_fused_mode_bug"
   ],
   "note": "proved for every history: GNSS sentences are coherent (C35_coherent), made from the latest messages at the requested rate (C35_content), at most once per epoch while the source stays the same and its UTC times do not go back (C35_once, C35_once_per_call), and sent whenever due (C35_complete); the claim fails on the fused path (C35_fused_incoherent_bug: nothing but the UTC time is checked), across the switch of source (C35_mode_switch_repeat_bug), for a requested fused mode (C35_fused_mode_bug) and for a first epoch at time of week 0."
  },
  {
   "property": "C36",
   "status": "partial",
   "theorems": [
    "Verif.Nmea.C36_ths",
    "Verif.Nmea.C36_ths_none",
    "Verif.Nmea.C36_hdt_partial",
    "Verif.Nmea.C36_hdt_360_bug",
    "Verif.Nmea.C36_hdt_none",
    "Verif.Nmea.C36_course_range",
    "Verif.Nmea.C36_course_value",
    "Verif.Nmea.C36_indicators",
    "Verif.Nmea.C36_differential",
    "Verif.Nmea.C36_undefined_mode_bug"
   ],
   "note": "C36_ths (all 32-bit yaws) and the course and indicator fields are full; HDT is in [0,360) up to 359.994 degrees (C36_hdt_partial) and prints 360.00 above (C36_hdt_360_bug); an unassigned solution mode 7 aborts (C36_undefined_mode_bug)."
  },
  {
   "property": "C37",
   "status": "proved",
   "theorems": [
    "Verif.Ubx.C37_valid",
    "Verif.Ubx.C37_chunking",
    "Verif.Ubx.C37_complete",
    "Verif.Ubx.C37_bounded",
    "Verif.Ubx.C37_stalled_read_bug",
    "Verif.Ubx.C37_resync_bug"
   ],
   "note": "C37_stalled_read_bug: a read of zero bytes in the middle of a frame loses the bytes already consumed (the theorem requires that the stream delivers at least one byte per read until its end); C37_resync_bug: a corrupted length swallows the following frame."
  },
  {
   "property": "C38",
   "status": "proved",
   "theorems": [
    "Verif.Ubx.C38_fletcher",
    "Verif.Ubx.C38_detects"
   ],
   "note": ""
  },
  {
   "property": "C39",
   "status": "proved",
   "theorems": [
    "Verif.Ubx.C39_roundtrip",
    "Verif.Ubx.C39_layout",
    "Verif.Ubx.C39_reencode",
    "Verif.Ubx.C39_other_type",
    "Verif.Ubx.C39_cut_off",
    "Verif.Ubx.C39_too_many",
    "Verif.Ubx.C39_encode_overrun_bug"
   ],
   "note": "All 13 message types of libubx. C39_encode_overrun_bug: the RXM-SFRBX encoder does not check the number of words (the decoder does)."
  },
  {
   "property": "C40",
   "status": "partial",
   "theorems": [
    "Verif.Ubx.C40_sound",
    "Verif.Ubx.C40_no_reuse",
    "Verif.Ubx.C40_complete",
    "Verif.Ubx.C40_gps_complete",
    "Verif.Ubx.C40_defined",
    "Verif.Ubx.C40_glo_string_zero_bug",
    "Verif.Ubx.C40_gal_eight_words_bug",
    "Verif.Ubx.C40_gps_one_round_not_enough",
    "Verif.Ubx.C40_gal_stale_bug",
    "Verif.Ubx.C40_sbas_partial",
    "Verif.Ubx.C40_sbas_week_start_bug"
   ],
   "note": "soundness (latest part of each number, one issue of data, never reused, content decoded from exactly those words) and completeness (one round for Galileo, BeiDou, GLONASS; two for GPS) proved for every history; the libswiftnav ephemeris decoders are parameters. Negative theorems: GLONASS string 0 is undefined behaviour, Galileo pages of 8 words are ignored, Galileo word type 5 (which has no issue of data) may be arbitrarily old, SBAS time wraps in the first 1.12 s of a week."
  },
  {
   "property": "C41",
   "status": "proved",
   "theorems": [
    "Verif.Ubx.C41_lossless",
    "Verif.Ubx.C41_framed",
    "Verif.Ubx.C41_defined",
    "Verif.Ubx.C41_week_end_bug",
    "Verif.Ubx.C41_indeterminate_bug",
    "Verif.Ubx.C41_undefined_bug",
    "Verif.Ubx.C41_over_210_bug"
   ],
   "note": "C41_lossless, C41_framed and C41_defined with IEEE double arithmetic; encode_lock_time is a parameter. Negative theorems: time 604800000 ms at the end of a week, a phase that does not fit is left indeterminate yet flagged valid, out-of-range pseudoranges are undefined behaviour, more than 210 measurements break the sequence byte."
  },
  {
   "property": "C42",
   "status": "proved",
   "theorems": [
    "Verif.Ubx.C42_phase",
    "Verif.Ubx.C42_doppler",
    "Verif.Ubx.C42_out_of_range",
    "Verif.Ubx.C42_carry_bug"
   ],
   "note": "Proved for every value below the greatest integer of the field; above it the carry wraps the Doppler (and overflows for the phase): C42_carry_bug."
  },
  {
   "property": "C43",
   "status": "proved",
   "theorems": [
    "Verif.Ubx.C43_cadence",
    "Verif.Ubx.C43_samples",
    "Verif.Ubx.C43_complete",
    "Verif.Ubx.C43_gap",
    "Verif.Ubx.C43_aux"
   ],
   "note": "All five parts are proved for every history; the time clauses assume libswiftnav's normalize/match-weeks behave as documented (SaneTime) and an uptime between 51 ms and 4294000 s (49.7 days; beyond that the model's double and uint32 arithmetic is not claimed). Float and double rounding are modelled."
  },
  {
   "property": "C44",
   "status": "partial",
   "theorems": [
    "Verif.Ubx.C44_messages",
    "Verif.Ubx.C44_defined",
    "Verif.Ubx.C44_counts",
    "Verif.Ubx.C44_forward",
    "Verif.Ubx.C44_distance_partial",
    "Verif.Ubx.C44_wrap_bug",
    "Verif.Ubx.C44_wheels_bug",
    "Verif.Ubx.C44_counter_wrap_bug",
    "Verif.Ubx.C44_early_bug"
   ],
   "note": "messages, counts, times (at most one unit early) and definedness are proved for every history; the count of a wheel is proved to be its distance for one wheel and no wrap of its 22-bit counter (and verbatim while never in reverse). Negative theorems: 22-bit wraps, several wheels in reverse, and the wrap of the 32-bit millisecond counter break it; times may be 1 ms early. libswiftnav time functions assumed as documented (SaneTime)."
  },
  {
   "property": "C45",
   "status": "partial",
   "theorems": [
    "Verif.Ixcom.C45_crc",
    "Verif.Ixcom.C45_messages",
    "Verif.Ixcom.C45_chunking",
    "Verif.Ixcom.C45_detects",
    "Verif.Ixcom.C45_short_length_bug",
    "Verif.Ixcom.C45_long_length_bug",
    "Verif.Ixcom.C45_stuck_bug",
    "Verif.Ixcom.C45_length_bug"
   ],
   "note": "proved for streams whose frames are longer than the header, shorter than 4096 bytes and, for the two converted types, have the length of the type (Cut, Proper), and whose values can be converted (Sane; see C57); chunk independence is proved without the last two. False of the code otherwise: length fields below 16 or from 4096 make it read outside its buffer or abort, 16 stops it for ever, and a frame of a wrong length is checked against the CRC field of an older frame (C45_*_bug)."
  },
  {
   "property": "C46",
   "status": "proved",
   "theorems": [
    "Verif.Ixcom.C46_imu",
    "Verif.Ixcom.C46_wheel"
   ],
   "note": "For streams as in C45; seconds below 604800 and microseconds below 10^6."
  },
  {
   "property": "C47",
   "status": "partial",
   "theorems": [
    "Verif.Nov.C47_sound",
    "Verif.Nov.C47_crc",
    "Verif.Nov.C47_detects",
    "Verif.Nov.C47_file_partial",
    "Verif.Nov.C47_complete_partial",
    "Verif.Nov.C47_tail_bug",
    "Verif.Nov.C47_empty_bug",
    "Verif.Nov.C47_length_bug",
    "Verif.Nov.C47_full_bug",
    "Verif.Nov.C47_split_bug"
   ],
   "note": "completeness holds for logs followed by at least 4096 more bytes of the file, of less than 4096 bytes and with a body of the length of its type. The rest is false of the code: C47_tail_bug (the last 4096 bytes are given up at the end of the file), C47_length_bug and C47_empty_bug (assertion failures), C47_full_bug, C47_split_bug."
  },
  {
   "property": "C48",
   "status": "proved",
   "theorems": [
    "Verif.RtcmSbp.C48_conversion",
    "Verif.RtcmSbp.C48_history",
    "Verif.RtcmSbp.C48_step",
    "Verif.RtcmSbp.C48_run"
   ],
   "note": ""
  },
  {
   "property": "C49",
   "status": "proved",
   "theorems": [
    "Verif.SbpRtcm.C49_legacy",
    "Verif.SbpRtcm.C49_33_sats_bug",
    "Verif.SbpRtcm.C49_glo_sat_bug"
   ],
   "note": "Proved for every epoch with at most 32 satellites per constellation, at most one first-frequency observation per satellite and GLONASS numbers within the table; C49_33_sats_bug and C49_glo_sat_bug show that the code leaves its arrays otherwise."
  },
  {
   "property": "C50",
   "status": "partial",
   "theorems": [
    "Verif.EphSbp.C50_gps_to_sbp",
    "Verif.EphSbp.C50_gps_back",
    "Verif.EphSbp.C50_gps_roundtrip",
    "Verif.EphSbp.C50_qzss_to_sbp",
    "Verif.EphSbp.C50_qzss_valid_bug",
    "Verif.EphSbp.C50_gal_to_sbp",
    "Verif.EphSbp.C50_gal_back",
    "Verif.EphSbp.C50_gal_roundtrip",
    "Verif.EphSbp.C50_bds_to_sbp",
    "Verif.EphSbp.C50_bds_roundtrip_partial",
    "Verif.EphSbp.C50_bds_week_start_bug",
    "Verif.EphSbp.C50_glo_to_sbp",
    "Verif.EphSbp.C50_glo_roundtrip_partial",
    "Verif.EphSbp.C50_glo_midnight_bug",
    "Verif.EphSbp.C50_glo_no_leap",
    "Verif.EphSbp.C50_bds_wire_partial",
    "Verif.EphSbp.C50_glo_wire_partial",
    "Verif.EphSbp.C50_gal_wire_partial"
   ],
   "note": "GPS and Galileo ephemerides are carried exactly into SBP and back (GPS weeks are replaced by the rover's resolved week; the L2 code/data fields have no SBP counterpart; the 1019 toe/toc swap is C10's). False of the code: QZSS with IODC >= 256 is flagged by the wrong bits (C50_qzss_valid_bug), BeiDou toe or toc at the week start comes back as the end of the previous week (C50_bds_week_start_bug), GLONASS t_b = 0 does not survive (C50_glo_midnight_bug); BeiDou and GLONASS round trips are proved outside those points."
  },
  {
   "property": "C51",
   "status": "proved",
   "theorems": [
    "Verif.RtcmSbp.C51_legacy",
    "Verif.RtcmSbp.C51_msm",
    "Verif.RtcmSbp.C51_cn0_overflow_bug",
    "Verif.RtcmSbp.C51_values",
    "Verif.RtcmSbp.C51_doppler_overflow_bug",
    "Verif.RtcmSbp.C51_fits",
    "Verif.RtcmSbp.C51_msm_any",
    "Verif.RtcmSbp.C51_legacy_fits",
    "Verif.RtcmSbp.C51_legacy_any",
    "Verif.RtcmSbp.C51_any"
   ],
   "note": "C51_values covers every payload, composed with the decoders of C11/C12 and the offered observations of C21; every double operation of the conversion rounds as in IEEE-754 (bounds widened by 1 micrometre and 4e-6 cycles); so do the decoders. For any payload at all only a negative pseudorange and, in MSM messages, 63.875 dB-Hz or a Doppler beyond 32768 Hz can fail to fit (C51_fits, C51_legacy_fits, C51_any). C51_cn0_overflow_bug: 63.94 dB-Hz does not fit the SBP field, hence InRange; C51_doppler_overflow_bug: nor does a Doppler beyond 32768 Hz (MSM5 and MSM7 can express 43 kHz on L1), hence Carries.fits needs InRange.dop."
  },
  {
   "property": "C52",
   "status": "partial",
   "theorems": [
    "Verif.Ubx.C52_position",
    "Verif.Ubx.C52_high_rate",
    "Verif.Ubx.C52_attitude",
    "Verif.Ubx.C52_velocity_partial",
    "Verif.Ubx.C52_only",
    "Verif.Ubx.C52_accuracy_bug",
    "Verif.Ubx.C52_shared_bug"
   ],
   "note": "position, attitude, high-rate selection and velocity are proved for every history, for angles within +-2147.48364 degrees (beyond, the int32 field of SBP cannot hold them). False of the code: the velocity accuracy is neither scaled to mm/s nor saturated (C52_accuracy_bug) and the static solution state is shared by all converters (C52_shared_bug)."
  },
  {
   "property": "C53",
   "status": "partial",
   "theorems": [
    "Verif.Ubx.C53_satellites_partial",
    "Verif.Ubx.C53_cn0_bug"
   ],
   "note": "everything but signal strengths of 64 dB-Hz and more, which wrap (C53_cn0_bug)."
  },
  {
   "property": "C54",
   "status": "proved",
   "theorems": [
    "Verif.Ubx.C54_sources",
    "Verif.Ubx.C54_forward"
   ],
   "note": ""
  },
  {
   "property": "C55",
   "status": "partial",
   "theorems": [
    "Verif.Ubx.C55_sound",
    "Verif.Ubx.C55_complete",
    "Verif.Ubx.C55_startup",
    "Verif.Ubx.C55_wrap_bug"
   ],
   "note": "within 49 days of start-up (ImuNormal); after the wrap of the 32-bit counter the offset is wrong (C55_wrap_bug). gps_time_match_weeks_safe and normalize_gps_time_safe of libswiftnav are parameters with the assumptions SaneTime."
  },
  {
   "property": "C56",
   "status": "proved",
   "theorems": [
    "Verif.Ubx.C56_ephemerides",
    "Verif.Ubx.C56_leap",
    "Verif.Ubx.C56_process",
    "Verif.Ubx.C56_chunking",
    "Verif.Ubx.C56_complete"
   ],
   "note": "The assembly of subframes into ephemerides is the one of C40, its numerical decoding of GPS/Galileo/GLONASS pages in libswiftnav is a parameter (EphLib). Conversions whose float-to-integer casts are undefined make the model return none and are excluded by the hypothesis that the run succeeds."
  },
  {
   "property": "C57",
   "status": "partial",
   "theorems": [
    "Verif.Ixcom.C57_imu_values",
    "Verif.Ixcom.C57_cadence",
    "Verif.Ixcom.C57_wheel_values",
    "Verif.Ixcom.C57_nan_bug",
    "Verif.Ixcom.C57_speed_bug"
   ],
   "note": "for streams as in C45. A NaN and a speed beyond the int32 range are undefined behaviour in the code (C57_nan_bug, C57_speed_bug). Float rounding is modelled exactly; pi is Real.pi in the statement."
  },
  {
   "property": "C58",
   "status": "proved",
   "theorems": [
    "Verif.Ixcom.C58_imu_roundtrip",
    "Verif.Ixcom.C58_wheel_roundtrip",
    "Verif.Ixcom.C58_imu_bytes",
    "Verif.Ixcom.C58_wheel_bytes"
   ],
   "note": "Floats are their bit patterns. The encoder does not compute the CRC: it copies the field."
  },
  {
   "property": "C59",
   "status": "partial",
   "theorems": [
    "Verif.Nov.C59_sound",
    "Verif.Nov.C59_complete_partial"
   ],
   "note": "completeness needs 4096 bytes after the logs and logs shorter than that (framing defects: C47_tail_bug, C47_full_bug, C47_split_bug) and values on which the program does not abort (C60_accuracy_bug, C60_nan_bug, C61_empty_bug, C62_error_bug, C63_abort_bug)."
  },
  {
   "property": "C60",
   "status": "partial",
   "theorems": [
    "Verif.Nov.C60_time",
    "Verif.Nov.C60_position_partial",
    "Verif.Nov.C60_position_sound",
    "Verif.Nov.C60_accuracy_bug",
    "Verif.Nov.C60_velocity",
    "Verif.Nov.C60_velocity_flags_partial",
    "Verif.Nov.C60_week_bug",
    "Verif.Nov.C60_attitude",
    "Verif.Nov.C60_nan_bug"
   ],
   "note": "totality of the position conversion is proved for standard deviations of at most 65 m (the rest is false: C60_accuracy_bug, undefined conversion); velocities up to 1000 km/s, angles up to 10000 degrees; NaN is undefined behaviour (C60_nan_bug). The flags of a velocity are right unless the last position is whole weeks old (C60_week_bug). Geoid separation and libm functions are parameters; cos and sin are assumed accurate to 1e-14."
  },
  {
   "property": "C61",
   "status": "partial",
   "theorems": [
    "Verif.Nov.C61_obs_partial",
    "Verif.Nov.C61_range",
    "Verif.Nov.C61_only",
    "Verif.Nov.C61_empty_bug",
    "Verif.Nov.C61_many_bug",
    "Verif.Nov.C61_phase_bug",
    "Verif.Nov.C61_half_bug",
    "Verif.Nov.C61_glonass_bug"
   ],
   "note": "1 to 63 records. False otherwise: an empty log is undefined behaviour (C61_empty_bug), records past 63 are dropped (C61_many_bug). The flags are not what the tracking status means: C61_phase_bug, C61_half_bug; GLONASS observations are dropped (C61_glonass_bug). The lock time encoding and sid_valid are parameters."
  },
  {
   "property": "C62",
   "status": "partial",
   "theorems": [
    "Verif.Nov.C62_data_partial",
    "Verif.Nov.C62_milligee_bug",
    "Verif.Nov.C62_unknown",
    "Verif.Nov.C62_error_bug",
    "Verif.Nov.C62_aux_partial",
    "Verif.Nov.C62_aux_bug"
   ],
   "note": "the acceleration of types 41, 61, 62 is a million times too large (C62_milligee_bug); IMU_AUX ignores the week and stops after a week rollover (C62_aux_bug); an IMU error flag stops the program (C62_error_bug)."
  },
  {
   "property": "C63",
   "status": "partial",
   "theorems": [
    "Verif.Nov.C63_ephemeris_partial",
    "Verif.Nov.C63_sound",
    "Verif.Nov.C63_ignored",
    "Verif.Nov.C63_abort_bug"
   ],
   "note": "totality for satellite numbers up to 255, weeks up to 65535 and times in [0, 2^32): otherwise the program stops (C63_abort_bug). sqrt is a parameter, assumed accurate to 2^-52."
  },
  {
   "property": "C64",
   "status": "partial",
   "theorems": [
    "Verif.Misc.C64_carried",
    "Verif.Misc.C64_roundtrip",
    "Verif.Misc.C64_sender_kept",
    "Verif.Misc.C64_sender_collision_bug",
    "Verif.Misc.C64_antenna",
    "Verif.Misc.C64_1005",
    "Verif.Misc.C64_1006_partial",
    "Verif.Misc.C64_1006_short_bug"
   ],
   "note": "a 1006 message truncated to 7, 8, 12, 13, 17 or 18 bytes is converted from uninitialised memory (C64_1006_short_bug); senders that differ in bit 7 collide (C64_sender_collision_bug)."
  },
  {
   "property": "C65",
   "status": "partial",
   "theorems": [
    "Verif.Misc.C65_roundtrip",
    "Verif.Misc.C65_1230",
    "Verif.Misc.C65_1230_rejected",
    "Verif.Misc.C65_1033_partial",
    "Verif.Misc.C65_1033_bug"
   ],
   "note": "the receiver descriptor of a 1033 message is not terminated and is searched past its end (C65_1033_bug); the theorem assumes that a zero byte follows in memory."
  },
  {
   "property": "C66",
   "status": "partial",
   "theorems": [
    "Verif.Misc.C66_text_partial",
    "Verif.Misc.C66_cut_bug",
    "Verif.Misc.C66_warning_partial",
    "Verif.Misc.C66_warning_sender_bug"
   ],
   "note": "a text is cut inside a character of three or four bytes (C66_cut_bug); the sender of the warning is wrong (C66_warning_sender_bug)."
  },
  {
   "property": "C67",
   "status": "proved",
   "theorems": [
    "Verif.Misc.C67_roundtrip",
    "Verif.Misc.C67_any"
   ],
   "note": "sbp_message_decode of libsbp is a parameter."
  },
  {
   "property": "C68",
   "status": "partial",
   "theorems": [
    "Verif.Misc.C68_decode_partial",
    "Verif.Misc.C68_sbas_partial",
    "Verif.Misc.C68_overread_bug",
    "Verif.Misc.C68_250_bug"
   ],
   "note": "the decoder is not given the length and reads memory behind a message that announces more than it holds (C68_overread_bug); the last word of a 250-bit SBAS frame is right-aligned and its bits come out in the wrong place (C68_250_bug)."
  },
  {
   "property": "C69",
   "status": "partial",
   "theorems": [
    "Verif.Sta.C69_rfstatus_bug",
    "Verif.Sta.C69_fwver_partial",
    "Verif.Sta.C69_fwver_bug",
    "Verif.Sta.C69_rcc"
   ],
   "note": "the RF status decoder accepts no message at all (C69_rfstatus_bug); a firmware text as long as the caller's array is terminated behind it (C69_fwver_bug). The configuration decoder is proved in full (C69_rcc)."
  },
  {
   "property": "C70",
   "status": "partial",
   "theorems": [
    "Verif.Conv.C70_stream_partial",
    "Verif.Conv.C70_other",
    "Verif.Conv.C70_overflow_bug",
    "Verif.Conv.C70_end_to_end_partial"
   ],
   "note": "when bytes are not fetched in time a frame is cut and its rest lost (C70_overflow_bug); GLONASS biases have no case (C70_other); observations and ephemerides are in C80. The FIFO of libswiftnav is assumed to be a queue that drops what has no room."
  },
  {
   "property": "C71",
   "status": "partial",
   "theorems": [
    "Verif.EphStream.C71_sendable",
    "Verif.EphStream.C71_stream_partial",
    "Verif.EphStream.C71_gps_exchanged_bug",
    "Verif.EphStream.C71_bds_week_bug",
    "Verif.EphStream.C71_gal_source_bug"
   ],
   "note": "GPS only with toe = toc (else they come back exchanged: C71_gps_exchanged_bug); BeiDou not in the first 14 s of a week (C50_bds_week_start_bug), not geostationary, and both times in one week (C71_bds_week_bug); GLONASS not in the first interval of the day (C50_glo_midnight_bug) and only with a solved time; Galileo health without its top bit (C10_1045/1046_health_bug), and an unknown source is an assertion failure (C71_gal_source_bug)."
  },
  {
   "property": "C72",
   "status": "partial",
   "theorems": [
    "Verif.ObsStream.C72_sendable",
    "Verif.ObsStream.C72_stream_partial",
    "Verif.ObsStream.C72_messages_partial",
    "Verif.ObsStream.C72_qzss_bug",
    "Verif.ObsStream.C72_week_start_bug",
    "Verif.ObsStream.C72_far_phase_bug"
   ],
   "note": "MSM4 and MSM5 with legacy messages off; each phase within 800 m of its pseudorange (else it is dropped: C72_far_phase_bug), observations of a satellite within 140 m and 1.1 m/s of each other, the receiver's time within half a week (GLONASS: half a day, and within 30 s of the leap second offset unless the epoch has GPS observations), not tow 0 (C72_week_start_bug), not only QZSS (C72_qzss_bug); every double operation of both converters and of the MSM codec rounds as in IEEE-754, the carrier frequency is any number of at least 1 Hz."
  },
  {
   "property": "C73",
   "status": "partial",
   "theorems": [
    "Verif.Prog.C73_start",
    "Verif.Prog.C73_sendable",
    "Verif.Prog.C73_program_partial",
    "Verif.Prog.C73_steady",
    "Verif.Prog.C73_no_time_bug",
    "Verif.Prog.C73_old_week_bug",
    "Verif.Prog.C73_glonass_minute_bug"
   ],
   "note": "the events must satisfy the conditions of C71 and C72 relative to the program's clock at that point; without a start time the default mode never learns the time (C73_no_time_bug); -o with a time before the reference week runs with an invalid clock (C73_old_week_bug); with -o GLONASS epochs a minute apart are lost (C73_glonass_minute_bug). Events with an observation or GPS ephemeris message wrapped in 4062 (it sets the clock) are left out. The command line is in C77; the SBP writer is not modelled; messages other than observations and ephemerides are in C74."
  },
  {
   "property": "C74",
   "status": "partial",
   "theorems": [
    "Verif.Pipe.C74_pipe_partial",
    "Verif.Pipe.C74_glonass_phase_bug"
   ],
   "note": "the items must satisfy `Fits`: the conditions of C71 to C73, epochs complete and not interleaved with other messages, values within their fields. sbp2rtcm never learns a GLONASS channel, so GLONASS phases and Dopplers are always lost (C74_glonass_phase_bug); it has no callback for QZSS ephemerides. Items with an observation or GPS ephemeris message wrapped in 4062, which sets the clock of rtcm3tosbp, are left out (sbp2rtcm wraps none). The SBP reader and writer (libsbp) are not modelled."
  },
  {
   "property": "C75",
   "status": "partial",
   "theorems": [
    "Verif.Guard.C75_no_abort_partial",
    "Verif.Guard.C75_obs_mode_partial",
    "Verif.Guard.C75_masks_bug",
    "Verif.Guard.C75_wrapped_clock_bug",
    "Verif.Guard.C75_old_week_bug"
   ],
   "note": "an MSM message that announces more than 32 satellites or 64 cells overflows the arrays of librtcm (C75_masks_bug); with -o a wrapped SBP observation message sets the clock to any value and the next observation message fails an assertion (C75_wrapped_clock_bug), as does a start time before the reference week (C75_old_week_bug). Conversions of floating point numbers to integer types too small for them are in C51 (Carries.fits, C51_doppler_overflow_bug), the arrays of the other messages in C03, C08, C14, C64 to C66; arrays of size 0 (a message without satellites or cells, decode.c:1220-1246) are not modelled."
  },
  {
   "property": "C76",
   "status": "partial",
   "theorems": [
    "Verif.Loop.C76_ubx",
    "Verif.Loop.C76_ubx_complete",
    "Verif.Loop.C76_ubx_chunking",
    "Verif.Loop.C76_ubx_means",
    "Verif.Loop.C76_ubx_pause_bug",
    "Verif.Loop.C76_ixcom_partial",
    "Verif.Loop.C76_ixcom_early_bug"
   ],
   "note": "an empty read ends ubx2sbp although more arrives (C76_ubx_pause_bug), a frame that is only a header ends ixcom2sbp (C76_ixcom_early_bug), and a header with an impossible length stops ixcom2sbp (C45_short_length_bug, C45_long_length_bug): hence UbxInput, IxcomInput and Cut. Not modelled: the command line, the bytes of the SBP frames and write errors, which both programs ignore."
  },
  {
   "property": "C77",
   "status": "partial",
   "theorems": [
    "Verif.Options.C77_command_line_partial",
    "Verif.Options.C77_bad_time",
    "Verif.Options.C77_disabled_partial",
    "Verif.Options.C77_values",
    "Verif.Options.C77_sbas_bug",
    "Verif.Options.C77_negative_code_bug",
    "Verif.Options.C77_date_bug",
    "Verif.Options.C77_legacy_bug"
   ],
   "note": "-S swallows the next word (C77_sbas_bug), legacy messages and ephemerides of a disabled constellation still pass (C77_legacy_bug), a negative code writes before the bias table (C77_negative_code_bug), a date that does not exist is accepted (C77_date_bug): hence no -S in Line and the restriction to MSM in C77_disabled_partial. Not modelled: printed text and verbosity; sscanf, time(NULL) and the time functions of libswiftnav are parameters; getopt is GNU getopt."
  },
  {
   "property": "C78",
   "status": "partial",
   "theorems": [
    "Verif.LegacyStream.C78_sendable",
    "Verif.LegacyStream.C78_stream_partial",
    "Verif.LegacyStream.C78_pcode_bug",
    "Verif.LegacyStream.C78_no_phase_bug",
    "Verif.LegacyStream.C78_order_bug",
    "Verif.LegacyStream.C78_second_wrap_bug"
   ],
   "note": "the epochs must satisfy `EpochOk`, which leaves out what the code spoils: P codes come back as C/A (C78_pcode_bug), a satellite without a valid first-frequency phase is dropped with its pseudorange and second frequency (C78_no_phase_bug), a second frequency before its first is dropped (C78_order_bug), pseudoranges more than 163 m apart wrap around (C78_second_wrap_bug). Also left out: 32 satellites of one system, phases more than 261 m from the pseudorange, pseudorange pairs with a multiple of a light-millisecond between them, and a receiver with signal biases. Every double operation of both converters and of the codec rounds as in IEEE-754."
  },
  {
   "property": "C79",
   "status": "partial",
   "theorems": [
    "Verif.Nmea.C79_speed",
    "Verif.Nmea.C79_course",
    "Verif.Nmea.C79_library",
    "Verif.Nmea.C79_vtg",
    "Verif.Nmea.C79_vtg_course",
    "Verif.Nmea.C79_rmc",
    "Verif.Nmea.C79_axes",
    "Verif.Nmea.C79_minor_finite",
    "Verif.Nmea.C79_orientation_partial",
    "Verif.Nmea.C79_std",
    "Verif.Nmea.C79_orientation_bug",
    "Verif.Nmea.C79_nan_bug",
    "Verif.Nmea.C79_gst_partial"
   ],
   "note": "an ellipse that is long in the east-west direction can get orientation 0 instead of 90 degrees, the direction of its minor axis (C79_orientation_bug); `Tilted` leaves these out. A covariance matrix that is positive semidefinite before its entries are rounded to float can give a semi-minor axis of nan (C79_nan_bug); for entries that are positive semidefinite as sent it cannot (C79_minor_finite). Libm is assumed accurate as `Accurate` says (square roots correctly rounded, arc tangents to 2^-50); such functions exist (accurate_exists)."
  },
  {
   "property": "C80",
   "status": "partial",
   "theorems": [
    "Verif.Conv.C80_prompt",
    "Verif.Conv.C80_conv_partial",
    "Verif.Conv.C80_bias_bug",
    "Verif.Conv.C80_capacity",
    "Verif.Conv.C80_epoch_bug"
   ],
   "note": "the items must satisfy `Fits` (as in C74: the conditions of C71 to C73, epochs complete and not interleaved with other messages), and the bytes must be fetched in time. That is not always possible: the FIFO of 2048 bytes is read only after all frames of a call were written, and a full epoch makes more (C80_epoch_bug: 2222 bytes for 196 observations). The library names its receiver \"SWFT\" after each position, for which rtcm3tosbp makes up a GLONASS bias message (C80_bias_bug). The decoding of SBP payloads (libsbp) is a parameter."
  },
  {
   "property": "C81",
   "status": "proved",
   "theorems": [
    "Verif.Nmea.C81_gga",
    "Verif.Nmea.C81_age",
    "Verif.Nmea.C81_pubx_accuracy",
    "Verif.Nmea.C81_pubx_velocity",
    "Verif.Nmea.C81_pubx_no_velocity",
    "Verif.Nmea.C81_pubx_quality"
   ],
   "note": "With a fix and finite values; libm is assumed accurate (`Accurate`, as in C79). Sentences without a fix: C32_no_fix."
  },
  {
   "property": "C82",
   "status": "partial",
   "theorems": [
    "Verif.C82_beidou_ephemeris",
    "Verif.C82_gps_ephemeris_partial",
    "Verif.C82_gps_ephemeris_bug",
    "Verif.C82_galileo_inav_ephemeris",
    "Verif.C82_galileo_fnav_ephemeris",
    "Verif.C82_glonass_ephemeris",
    "Verif.C82_station_1005",
    "Verif.C82_station_1006",
    "Verif.C82_antenna_1007",
    "Verif.C82_antenna_1008",
    "Verif.C82_receiver_1033",
    "Verif.C82_text_1029",
    "Verif.C82_proprietary_4062",
    "Verif.C82_glonass_biases_partial"
   ],
   "note": "Exact for 1005, 1006, 1007, 1008, 1020, 1029, 1033, 1042, 1045, 1046 and 4062. For 1019 the two times come back exchanged (C82_gps_ephemeris_bug; restored by a second hop), for 1230 the bias indicator comes back 0 (C09_bias_indicator_bug); everything else in these two is exact. Observation messages are covered by C11-C13 from the encoder's side only."
  },
  {
   "property": "C83",
   "status": "proved",
   "theorems": [
    "Verif.Msm.C83_msm_relayed",
    "Verif.Msm.C83_high_resolution_not_written"
   ],
   "note": "MSM4 and MSM5 with at most 32 satellites (see C12_too_many_sats_bug for more). MSM6 and MSM7 have no encoder: C83_high_resolution_not_written."
  }
 ]
}