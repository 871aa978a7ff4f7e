import Verif.Props.C01_C04
import Verif.Props.C05
import Verif.Props.C06_C09
import Verif.Props.C10
import Verif.Props.C11
import Verif.Props.C11_ranges
import Verif.Props.C12_C13
import Verif.Props.C13_ranges
import Verif.Props.C14
import Verif.Props.C16
import Verif.Props.C17_C19
import Verif.Props.C20_C21
import Verif.Props.C22_C23
import Verif.Props.C24
import Verif.Props.C25_C48
import Verif.Props.C26_C27
import Verif.Props.C28
import Verif.Props.C29
import Verif.Props.C30
import Verif.Props.C31
import Verif.Props.C32
import Verif.Props.C33
import Verif.Props.C34
import Verif.Props.C35
import Verif.Props.C36
import Verif.Props.C36_fields
import Verif.Props.C37_C38
import Verif.Props.C39
import Verif.Props.C40
import Verif.Props.C41_C42
import Verif.Props.C43
import Verif.Props.C44
import Verif.Props.C45_C46
import Verif.Props.C47
import Verif.Props.C49
import Verif.Props.C50
import Verif.Props.C51
import Verif.Props.C51_fits
import Verif.Props.C51_legacy
import Verif.Props.C52_C54
import Verif.Props.C55
import Verif.Props.C56
import Verif.Props.C57_C58
import Verif.Props.C59
import Verif.Props.C60
import Verif.Props.C61
import Verif.Props.C62
import Verif.Props.C63
import Verif.Props.C64
import Verif.Props.C64_any
import Verif.Props.C65
import Verif.Props.C66
import Verif.Props.C67
import Verif.Props.C68
import Verif.Props.C69
import Verif.Props.C70
import Verif.Props.C71
import Verif.Props.C72
import Verif.Props.C73
import Verif.Props.C74
import Verif.Props.C75
import Verif.Props.C76
import Verif.Props.C77
import Verif.Props.C78
import Verif.Props.C79
import Verif.Props.C80
import Verif.Props.C81
import Verif.Props.C82
import Verif.Props.C83
/-! Axioms of every property theorem, printed at build time (generated by scripts/gen.py). -/
#print axioms Verif.RtcmFraming.C01_chunking_independent
#print axioms Verif.RtcmFraming.C01_bytewise
#print axioms Verif.RtcmFraming.C02_only_valid_frames
#print axioms Verif.RtcmFraming.C02_all_frames_decoded
#print axioms Verif.RtcmFraming.C02_frame_at_front
#print axioms Verif.RtcmFraming.C02_decode_frame_short_bug
#print axioms Verif.RtcmFraming.C03_fifo_never_overflows
#print axioms Verif.RtcmFraming.C03_fifo_is_stream_suffix
#print axioms Verif.RtcmFraming.C03_overflow_restarts_empty
#print axioms Verif.RtcmFraming.C04_frame_roundtrip
#print axioms Verif.RtcmFraming.C04_stream_roundtrip
#print axioms Verif.RtcmFraming.C04_frame_buffer_overflow_bug
#print axioms Verif.C05_unsigned_readback
#print axioms Verif.C05_unsigned_roundtrip
#print axioms Verif.C05_unsigned_long_roundtrip
#print axioms Verif.C05_write_exact
#print axioms Verif.C05_write_long_exact
#print axioms Verif.C05_disjoint_fields
#print axioms Verif.C05_signed_roundtrip
#print axioms Verif.C05_signed_long_roundtrip
#print axioms Verif.C05_signmag_roundtrip
#print axioms Verif.C05_signed_local
#print axioms Verif.C05_getbits_no_overflow
#print axioms Verif.C05_getbits_overflow_bug
#print axioms Verif.C06_1005_roundtrip
#print axioms Verif.C06_1005_exact
#print axioms Verif.C06_1006_roundtrip
#print axioms Verif.C07_1007_roundtrip
#print axioms Verif.C07_1008_roundtrip
#print axioms Verif.C07_1033_roundtrip
#print axioms Verif.C07_strings_bounded
#print axioms Verif.C07_long_string_rejected
#print axioms Verif.C08_1029_roundtrip
#print axioms Verif.C08_4062_roundtrip
#print axioms Verif.C09_1230_roundtrip_partial
#print axioms Verif.C09_bias_indicator_bug
#print axioms Verif.C10_1019_partial
#print axioms Verif.C10_1019_roundtrip_partial
#print axioms Verif.C10_1019_toe_toc_bug
#print axioms Verif.C10_1042_roundtrip
#print axioms Verif.C10_1042_geo_rejected
#print axioms Verif.C10_1046_roundtrip_partial
#print axioms Verif.C10_1046_health_bug
#print axioms Verif.C10_1045_roundtrip_partial
#print axioms Verif.C10_1045_health_bug
#print axioms Verif.C10_1044_decodes_layout
#print axioms Verif.C10_1020_roundtrip
#print axioms Verif.Obs.C11_obs_roundtrip_partial
#print axioms Verif.Obs.C11_32_sats_lost_bug
#print axioms Verif.Obs.C11_phase_wrap_bug
#print axioms Verif.Obs.C11_invalid_pr_ignored_bug
#print axioms Verif.Obs.C11_unknown_channel_l1
#print axioms Verif.Obs.C11_unknown_channel_l2_bug
#print axioms Verif.Obs.C11_invalid_cnr_bug
#print axioms Verif.Obs.C11_code_indicator_bug
#print axioms Verif.Obs.C11_ranges
#print axioms Verif.Msm.C12_header_roundtrip
#print axioms Verif.Msm.C12_masks_roundtrip
#print axioms Verif.Msm.C12_accepted_consistent
#print axioms Verif.Msm.C12_too_many_sats_bug
#print axioms Verif.Msm.C12_cell_mask_overflow_bug
#print axioms Verif.Msm.C13_contents_roundtrip
#print axioms Verif.Msm.C13_invalid_rough
#print axioms Verif.Msm.C13_rough_range_bug
#print axioms Verif.Msm.C13_doubles
#print axioms Verif.Msm.C13_ranges
#print axioms Verif.Decoders.C14_station
#print axioms Verif.Decoders.C14_ephemeris
#print axioms Verif.Decoders.C14_galileo_partial
#print axioms Verif.Decoders.C14_galileo_code_bug
#print axioms Verif.Decoders.C14_1006_partial
#print axioms Verif.Decoders.C14_1006_truncated_bug
#print axioms Verif.Decoders.C14_legacy
#print axioms Verif.Decoders.C14_msm
#print axioms Verif.Decoders.C14_ssr_types
#print axioms Verif.Decoders.C14_ssr_truncation_partial
#print axioms Verif.Decoders.C14_ssr_clock_truncated_bug
#print axioms Verif.Decoders.C14_orbit_as_orbit_clock_bug
#print axioms Verif.Decoders.C14_minimal_size
#print axioms Verif.Decoders.C14_4062_reserved
#print axioms Verif.Obs.C15_legacy_time_in_range
#print axioms Verif.Msm.C15_msm_time_in_range
#print axioms Verif.Lock.C16_legacy_never_overstates
#print axioms Verif.Lock.C16_legacy_tight
#print axioms Verif.Lock.C16_legacy_indicator_roundtrip
#print axioms Verif.Lock.C16_legacy_monotone
#print axioms Verif.Lock.C16_legacy_decode_monotone
#print axioms Verif.Lock.C16_msm_never_overstates
#print axioms Verif.Lock.C16_msm_indicator_roundtrip
#print axioms Verif.Lock.C16_msm_monotone
#print axioms Verif.Lock.C16_msm_decode_monotone
#print axioms Verif.Lock.C16_msm_tight
#print axioms Verif.Lock.C16_ext_table
#print axioms Verif.Lock.C16_ext_monotone
#print axioms Verif.Msm.C17_number_classified
#print axioms Verif.Msm.C17_classified_number
#print axioms Verif.Msm.C17_other_unknown
#print axioms Verif.Msm.C17_number_injective
#print axioms Verif.Msm.C18_code_roundtrip
#print axioms Verif.Msm.C18_ids_injective
#print axioms Verif.Msm.C18_id_roundtrip
#print axioms Verif.Msm.C18_constellations_disjoint
#print axioms Verif.Msm.C18_prn_roundtrip
#print axioms Verif.Msm.C18_prn_injective
#print axioms Verif.Msm.C18_row_prn
#print axioms Verif.Msm.C18_unsupported_code
#print axioms Verif.RtcmSbp.C18_standard_signals
#print axioms Verif.Msm.C19_nth_then_count
#print axioms Verif.Msm.C19_count_then_nth
#print axioms Verif.Msm.C19_additions
#print axioms Verif.Msm.C19_cells
#print axioms Verif.Msm.C19_unsupported_code_bug
#print axioms Verif.RtcmSbp.C20_split
#print axioms Verif.RtcmSbp.C20_history
#print axioms Verif.RtcmSbp.C21_bounded
#print axioms Verif.RtcmSbp.C21_no_fabrication
#print axioms Verif.RtcmSbp.C21_gps_complete
#print axioms Verif.RtcmSbp.C21_gps_stale_dropped
#print axioms Verif.RtcmSbp.C21_glo_stale_dropped
#print axioms Verif.RtcmSbp.C21_msm_complete
#print axioms Verif.RtcmSbp.C21_gps_order
#print axioms Verif.RtcmSbp.C21_order_bug
#print axioms Verif.RtcmSbp.C21_week_mix_bug
#print axioms Verif.Time.C22_nearest_week
#print axioms Verif.Time.C22_unique
#print axioms Verif.Time.C22_edge_weeks
#print axioms Verif.Time.C22_rejects
#print axioms Verif.Time.C23_glo_time
#print axioms Verif.Time.C23_glo_total
#print axioms Verif.Time.C23_glo_needs_leap
#print axioms Verif.Time.C23_glo_tow
#print axioms Verif.Time.C23_glo_roundtrip
#print axioms Verif.Time.C23_glo_tow_unknown_leap_bug
#print axioms Verif.Time.C23_bds
#print axioms Verif.TimeTruth.C24_never_back
#print axioms Verif.TimeTruth.C24_completed
#print axioms Verif.TimeTruth.C24_no_fabrication
#print axioms Verif.TimeTruth.C24_rejected
#print axioms Verif.TimeTruth.C24_true_published
#print axioms Verif.TimeTruth.C24_changes_only_by_success
#print axioms Verif.TimeTruth.C24_from_sbp
#print axioms Verif.TimeTruth.C24_week_rounding_bug
#print axioms Verif.RtcmSbp.C25_ignored
#print axioms Verif.RtcmSbp.C25_no_observation
#print axioms Verif.RtcmSbp.C25_no_observation_run
#print axioms Verif.RtcmSbp.C25_outputs
#print axioms Verif.RtcmSbp.C25_empty_obs_bug
#print axioms Verif.SsrSbp.C26_pairing
#print axioms Verif.SsrSbp.C26_trace
#print axioms Verif.SsrSbp.C26_contents
#print axioms Verif.SsrSbp.C26_complete_partial
#print axioms Verif.SsrSbp.C26_no_time
#print axioms Verif.SsrSbp.C26_combined
#print axioms Verif.SsrSbp.C26_time
#print axioms Verif.SsrSbp.C26_time_glo
#print axioms Verif.SsrSbp.C26_epoch_range
#print axioms Verif.SsrSbp.C26_dropped_bug
#print axioms Verif.SsrSbp.C26_uninitialised_bug
#print axioms Verif.SsrSbp.C26_bds_epoch_bug
#print axioms Verif.SsrSbp.C26_galileo_iod_bug
#print axioms Verif.SsrSbp.C26_provider_bug
#print axioms Verif.SsrSbp.C27_phase
#print axioms Verif.SsrSbp.C27_code
#print axioms Verif.SsrSbp.C27_no_time
#print axioms Verif.SsrSbp.C27_bounded
#print axioms Verif.SsrSbp.C27_dispatch
#print axioms Verif.SbpRtcm.C28_bounded
#print axioms Verif.SbpRtcm.C28_no_mixing
#print axioms Verif.SbpRtcm.C28_conservation
#print axioms Verif.SbpRtcm.C28_complete
#print axioms Verif.SbpRtcm.C28_sender_mix_bug
#print axioms Verif.SbpRtcm.C28_zero_size_bug
#print axioms Verif.SbpRtcm.C28_short_payload_bug
#print axioms Verif.SbpRtcm.C29_last
#print axioms Verif.SbpRtcm.C29_messages
#print axioms Verif.SbpRtcm.C29_sbas_bug
#print axioms Verif.SbpRtcm.C29_invalid_sat_bug
#print axioms Verif.SbpRtcm.C29_duplicate_bug
#print axioms Verif.SbpRtcm.C29_overwrite_bug
#print axioms Verif.Acc.C30_gps_ura
#print axioms Verif.Acc.C30_glo_ura
#print axioms Verif.Acc.C30_bds_ura
#print axioms Verif.Acc.C30_sisa
#print axioms Verif.Acc.C30_sisa_nearest
#print axioms Verif.Acc.C30_fit_gps
#print axioms Verif.Acc.C30_fit_glo
#print axioms Verif.Acc.C30_understates_bug
#print axioms Verif.Acc.C30_index_overflow_bug
#print axioms Verif.Nmea.C31_wellformed
#print axioms Verif.Nmea.C31_complete
#print axioms Verif.Nmea.C31_pubx_partial
#print axioms Verif.Nmea.C31_pubx_truncated_bug
#print axioms Verif.Nmea.C32_position
#print axioms Verif.Nmea.C32_sentences
#print axioms Verif.Nmea.C32_no_fix
#print axioms Verif.Nmea.C32_nan_bug
#print axioms Verif.Nmea.C33_carry
#print axioms Verif.Nmea.C33_leap_second
#print axioms Verif.Nmea.C33_string
#print axioms Verif.Nmea.C33_unknown
#print axioms Verif.Nmea.C33_leap_event_bug
#print axioms Verif.Nmea.C34_gsv_partial
#print axioms Verif.Nmea.C34_gsv_empty
#print axioms Verif.Nmea.C34_gsa_partial
#print axioms Verif.Nmea.C34_gsa_dops
#print axioms Verif.Nmea.C34_gsa_thirteenth_bug
#print axioms Verif.Nmea.C34_qzss_number_bug
#print axioms Verif.Nmea.C35_coherent
#print axioms Verif.Nmea.C35_fused
#print axioms Verif.Nmea.C35_content
#print axioms Verif.Nmea.C35_once_per_call
#print axioms Verif.Nmea.C35_once
#print axioms Verif.Nmea.C35_complete
#print axioms Verif.Nmea.C35_rate
#print axioms Verif.Nmea.C35_period
#print axioms Verif.Nmea.C35_period_zero_bug
#print axioms Verif.Nmea.C35_first_epoch_zero_bug
#print axioms Verif.Nmea.C35_fused_incoherent_bug
#print axioms Verif.Nmea.C35_mode_switch_repeat_bug
#print axioms Verif.Nmea.C35_fused_mode_bug
#print axioms Verif.Nmea.C36_ths
#print axioms Verif.Nmea.C36_ths_none
#print axioms Verif.Nmea.C36_hdt_partial
#print axioms Verif.Nmea.C36_hdt_360_bug
#print axioms Verif.Nmea.C36_hdt_none
#print axioms Verif.Nmea.C36_course_range
#print axioms Verif.Nmea.C36_course_value
#print axioms Verif.Nmea.C36_indicators
#print axioms Verif.Nmea.C36_differential
#print axioms Verif.Nmea.C36_undefined_mode_bug
#print axioms Verif.Ubx.C37_valid
#print axioms Verif.Ubx.C37_chunking
#print axioms Verif.Ubx.C37_complete
#print axioms Verif.Ubx.C37_bounded
#print axioms Verif.Ubx.C37_stalled_read_bug
#print axioms Verif.Ubx.C37_resync_bug
#print axioms Verif.Ubx.C38_fletcher
#print axioms Verif.Ubx.C38_detects
#print axioms Verif.Ubx.C39_roundtrip
#print axioms Verif.Ubx.C39_layout
#print axioms Verif.Ubx.C39_reencode
#print axioms Verif.Ubx.C39_other_type
#print axioms Verif.Ubx.C39_cut_off
#print axioms Verif.Ubx.C39_too_many
#print axioms Verif.Ubx.C39_encode_overrun_bug
#print axioms Verif.Ubx.C40_sound
#print axioms Verif.Ubx.C40_no_reuse
#print axioms Verif.Ubx.C40_complete
#print axioms Verif.Ubx.C40_gps_complete
#print axioms Verif.Ubx.C40_defined
#print axioms Verif.Ubx.C40_glo_string_zero_bug
#print axioms Verif.Ubx.C40_gal_eight_words_bug
#print axioms Verif.Ubx.C40_gps_one_round_not_enough
#print axioms Verif.Ubx.C40_gal_stale_bug
#print axioms Verif.Ubx.C40_sbas_partial
#print axioms Verif.Ubx.C40_sbas_week_start_bug
#print axioms Verif.Ubx.C41_lossless
#print axioms Verif.Ubx.C41_framed
#print axioms Verif.Ubx.C41_defined
#print axioms Verif.Ubx.C41_week_end_bug
#print axioms Verif.Ubx.C41_indeterminate_bug
#print axioms Verif.Ubx.C41_undefined_bug
#print axioms Verif.Ubx.C41_over_210_bug
#print axioms Verif.Ubx.C42_phase
#print axioms Verif.Ubx.C42_doppler
#print axioms Verif.Ubx.C42_out_of_range
#print axioms Verif.Ubx.C42_carry_bug
#print axioms Verif.Ubx.C43_cadence
#print axioms Verif.Ubx.C43_samples
#print axioms Verif.Ubx.C43_complete
#print axioms Verif.Ubx.C43_gap
#print axioms Verif.Ubx.C43_aux
#print axioms Verif.Ubx.C44_messages
#print axioms Verif.Ubx.C44_defined
#print axioms Verif.Ubx.C44_counts
#print axioms Verif.Ubx.C44_forward
#print axioms Verif.Ubx.C44_distance_partial
#print axioms Verif.Ubx.C44_wrap_bug
#print axioms Verif.Ubx.C44_wheels_bug
#print axioms Verif.Ubx.C44_counter_wrap_bug
#print axioms Verif.Ubx.C44_early_bug
#print axioms Verif.Ixcom.C45_crc
#print axioms Verif.Ixcom.C45_messages
#print axioms Verif.Ixcom.C45_chunking
#print axioms Verif.Ixcom.C45_detects
#print axioms Verif.Ixcom.C45_short_length_bug
#print axioms Verif.Ixcom.C45_long_length_bug
#print axioms Verif.Ixcom.C45_stuck_bug
#print axioms Verif.Ixcom.C45_length_bug
#print axioms Verif.Ixcom.C46_imu
#print axioms Verif.Ixcom.C46_wheel
#print axioms Verif.Nov.C47_sound
#print axioms Verif.Nov.C47_crc
#print axioms Verif.Nov.C47_detects
#print axioms Verif.Nov.C47_file_partial
#print axioms Verif.Nov.C47_complete_partial
#print axioms Verif.Nov.C47_tail_bug
#print axioms Verif.Nov.C47_empty_bug
#print axioms Verif.Nov.C47_length_bug
#print axioms Verif.Nov.C47_full_bug
#print axioms Verif.Nov.C47_split_bug
#print axioms Verif.RtcmSbp.C48_conversion
#print axioms Verif.RtcmSbp.C48_history
#print axioms Verif.RtcmSbp.C48_step
#print axioms Verif.RtcmSbp.C48_run
#print axioms Verif.SbpRtcm.C49_legacy
#print axioms Verif.SbpRtcm.C49_33_sats_bug
#print axioms Verif.SbpRtcm.C49_glo_sat_bug
#print axioms Verif.EphSbp.C50_gps_to_sbp
#print axioms Verif.EphSbp.C50_gps_back
#print axioms Verif.EphSbp.C50_gps_roundtrip
#print axioms Verif.EphSbp.C50_qzss_to_sbp
#print axioms Verif.EphSbp.C50_qzss_valid_bug
#print axioms Verif.EphSbp.C50_gal_to_sbp
#print axioms Verif.EphSbp.C50_gal_back
#print axioms Verif.EphSbp.C50_gal_roundtrip
#print axioms Verif.EphSbp.C50_bds_to_sbp
#print axioms Verif.EphSbp.C50_bds_roundtrip_partial
#print axioms Verif.EphSbp.C50_bds_week_start_bug
#print axioms Verif.EphSbp.C50_glo_to_sbp
#print axioms Verif.EphSbp.C50_glo_roundtrip_partial
#print axioms Verif.EphSbp.C50_glo_midnight_bug
#print axioms Verif.EphSbp.C50_glo_no_leap
#print axioms Verif.EphSbp.C50_bds_wire_partial
#print axioms Verif.EphSbp.C50_glo_wire_partial
#print axioms Verif.EphSbp.C50_gal_wire_partial
#print axioms Verif.RtcmSbp.C51_legacy
#print axioms Verif.RtcmSbp.C51_msm
#print axioms Verif.RtcmSbp.C51_cn0_overflow_bug
#print axioms Verif.RtcmSbp.C51_values
#print axioms Verif.RtcmSbp.C51_doppler_overflow_bug
#print axioms Verif.RtcmSbp.C51_fits
#print axioms Verif.RtcmSbp.C51_msm_any
#print axioms Verif.RtcmSbp.C51_legacy_fits
#print axioms Verif.RtcmSbp.C51_legacy_any
#print axioms Verif.RtcmSbp.C51_any
#print axioms Verif.Ubx.C52_position
#print axioms Verif.Ubx.C52_high_rate
#print axioms Verif.Ubx.C52_attitude
#print axioms Verif.Ubx.C52_velocity_partial
#print axioms Verif.Ubx.C52_only
#print axioms Verif.Ubx.C52_accuracy_bug
#print axioms Verif.Ubx.C52_shared_bug
#print axioms Verif.Ubx.C53_satellites_partial
#print axioms Verif.Ubx.C53_cn0_bug
#print axioms Verif.Ubx.C54_sources
#print axioms Verif.Ubx.C54_forward
#print axioms Verif.Ubx.C55_sound
#print axioms Verif.Ubx.C55_complete
#print axioms Verif.Ubx.C55_startup
#print axioms Verif.Ubx.C55_wrap_bug
#print axioms Verif.Ubx.C56_ephemerides
#print axioms Verif.Ubx.C56_leap
#print axioms Verif.Ubx.C56_process
#print axioms Verif.Ubx.C56_chunking
#print axioms Verif.Ubx.C56_complete
#print axioms Verif.Ixcom.C57_imu_values
#print axioms Verif.Ixcom.C57_cadence
#print axioms Verif.Ixcom.C57_wheel_values
#print axioms Verif.Ixcom.C57_nan_bug
#print axioms Verif.Ixcom.C57_speed_bug
#print axioms Verif.Ixcom.C58_imu_roundtrip
#print axioms Verif.Ixcom.C58_wheel_roundtrip
#print axioms Verif.Ixcom.C58_imu_bytes
#print axioms Verif.Ixcom.C58_wheel_bytes
#print axioms Verif.Nov.C59_sound
#print axioms Verif.Nov.C59_complete_partial
#print axioms Verif.Nov.C60_time
#print axioms Verif.Nov.C60_position_partial
#print axioms Verif.Nov.C60_position_sound
#print axioms Verif.Nov.C60_accuracy_bug
#print axioms Verif.Nov.C60_velocity
#print axioms Verif.Nov.C60_velocity_flags_partial
#print axioms Verif.Nov.C60_week_bug
#print axioms Verif.Nov.C60_attitude
#print axioms Verif.Nov.C60_nan_bug
#print axioms Verif.Nov.C61_obs_partial
#print axioms Verif.Nov.C61_range
#print axioms Verif.Nov.C61_only
#print axioms Verif.Nov.C61_empty_bug
#print axioms Verif.Nov.C61_many_bug
#print axioms Verif.Nov.C61_phase_bug
#print axioms Verif.Nov.C61_half_bug
#print axioms Verif.Nov.C61_glonass_bug
#print axioms Verif.Nov.C62_data_partial
#print axioms Verif.Nov.C62_milligee_bug
#print axioms Verif.Nov.C62_unknown
#print axioms Verif.Nov.C62_error_bug
#print axioms Verif.Nov.C62_aux_partial
#print axioms Verif.Nov.C62_aux_bug
#print axioms Verif.Nov.C63_ephemeris_partial
#print axioms Verif.Nov.C63_sound
#print axioms Verif.Nov.C63_ignored
#print axioms Verif.Nov.C63_abort_bug
#print axioms Verif.Misc.C64_carried
#print axioms Verif.Misc.C64_roundtrip
#print axioms Verif.Misc.C64_sender_kept
#print axioms Verif.Misc.C64_sender_collision_bug
#print axioms Verif.Misc.C64_antenna
#print axioms Verif.Misc.C64_1005
#print axioms Verif.Misc.C64_1006_partial
#print axioms Verif.Misc.C64_1006_short_bug
#print axioms Verif.Misc.C65_roundtrip
#print axioms Verif.Misc.C65_1230
#print axioms Verif.Misc.C65_1230_rejected
#print axioms Verif.Misc.C65_1033_partial
#print axioms Verif.Misc.C65_1033_bug
#print axioms Verif.Misc.C66_text_partial
#print axioms Verif.Misc.C66_cut_bug
#print axioms Verif.Misc.C66_warning_partial
#print axioms Verif.Misc.C66_warning_sender_bug
#print axioms Verif.Misc.C67_roundtrip
#print axioms Verif.Misc.C67_any
#print axioms Verif.Misc.C68_decode_partial
#print axioms Verif.Misc.C68_sbas_partial
#print axioms Verif.Misc.C68_overread_bug
#print axioms Verif.Misc.C68_250_bug
#print axioms Verif.Sta.C69_rfstatus_bug
#print axioms Verif.Sta.C69_fwver_partial
#print axioms Verif.Sta.C69_fwver_bug
#print axioms Verif.Sta.C69_rcc
#print axioms Verif.Conv.C70_stream_partial
#print axioms Verif.Conv.C70_other
#print axioms Verif.Conv.C70_overflow_bug
#print axioms Verif.Conv.C70_end_to_end_partial
#print axioms Verif.EphStream.C71_sendable
#print axioms Verif.EphStream.C71_stream_partial
#print axioms Verif.EphStream.C71_gps_exchanged_bug
#print axioms Verif.EphStream.C71_bds_week_bug
#print axioms Verif.EphStream.C71_gal_source_bug
#print axioms Verif.ObsStream.C72_sendable
#print axioms Verif.ObsStream.C72_stream_partial
#print axioms Verif.ObsStream.C72_messages_partial
#print axioms Verif.ObsStream.C72_qzss_bug
#print axioms Verif.ObsStream.C72_week_start_bug
#print axioms Verif.ObsStream.C72_far_phase_bug
#print axioms Verif.Prog.C73_start
#print axioms Verif.Prog.C73_sendable
#print axioms Verif.Prog.C73_program_partial
#print axioms Verif.Prog.C73_steady
#print axioms Verif.Prog.C73_no_time_bug
#print axioms Verif.Prog.C73_old_week_bug
#print axioms Verif.Prog.C73_glonass_minute_bug
#print axioms Verif.Pipe.C74_pipe_partial
#print axioms Verif.Pipe.C74_glonass_phase_bug
#print axioms Verif.Guard.C75_no_abort_partial
#print axioms Verif.Guard.C75_obs_mode_partial
#print axioms Verif.Guard.C75_masks_bug
#print axioms Verif.Guard.C75_wrapped_clock_bug
#print axioms Verif.Guard.C75_old_week_bug
#print axioms Verif.Loop.C76_ubx
#print axioms Verif.Loop.C76_ubx_complete
#print axioms Verif.Loop.C76_ubx_chunking
#print axioms Verif.Loop.C76_ubx_means
#print axioms Verif.Loop.C76_ubx_pause_bug
#print axioms Verif.Loop.C76_ixcom_partial
#print axioms Verif.Loop.C76_ixcom_early_bug
#print axioms Verif.Options.C77_command_line_partial
#print axioms Verif.Options.C77_bad_time
#print axioms Verif.Options.C77_disabled_partial
#print axioms Verif.Options.C77_values
#print axioms Verif.Options.C77_sbas_bug
#print axioms Verif.Options.C77_negative_code_bug
#print axioms Verif.Options.C77_date_bug
#print axioms Verif.Options.C77_legacy_bug
#print axioms Verif.LegacyStream.C78_sendable
#print axioms Verif.LegacyStream.C78_stream_partial
#print axioms Verif.LegacyStream.C78_pcode_bug
#print axioms Verif.LegacyStream.C78_no_phase_bug
#print axioms Verif.LegacyStream.C78_order_bug
#print axioms Verif.LegacyStream.C78_second_wrap_bug
#print axioms Verif.Nmea.C79_speed
#print axioms Verif.Nmea.C79_course
#print axioms Verif.Nmea.C79_library
#print axioms Verif.Nmea.C79_vtg
#print axioms Verif.Nmea.C79_vtg_course
#print axioms Verif.Nmea.C79_rmc
#print axioms Verif.Nmea.C79_axes
#print axioms Verif.Nmea.C79_minor_finite
#print axioms Verif.Nmea.C79_orientation_partial
#print axioms Verif.Nmea.C79_std
#print axioms Verif.Nmea.C79_orientation_bug
#print axioms Verif.Nmea.C79_nan_bug
#print axioms Verif.Nmea.C79_gst_partial
#print axioms Verif.Conv.C80_prompt
#print axioms Verif.Conv.C80_conv_partial
#print axioms Verif.Conv.C80_bias_bug
#print axioms Verif.Conv.C80_capacity
#print axioms Verif.Conv.C80_epoch_bug
#print axioms Verif.Nmea.C81_gga
#print axioms Verif.Nmea.C81_age
#print axioms Verif.Nmea.C81_pubx_accuracy
#print axioms Verif.Nmea.C81_pubx_velocity
#print axioms Verif.Nmea.C81_pubx_no_velocity
#print axioms Verif.Nmea.C81_pubx_quality
#print axioms Verif.C82_beidou_ephemeris
#print axioms Verif.C82_gps_ephemeris_partial
#print axioms Verif.C82_gps_ephemeris_bug
#print axioms Verif.C82_galileo_inav_ephemeris
#print axioms Verif.C82_galileo_fnav_ephemeris
#print axioms Verif.C82_glonass_ephemeris
#print axioms Verif.C82_station_1005
#print axioms Verif.C82_station_1006
#print axioms Verif.C82_antenna_1007
#print axioms Verif.C82_antenna_1008
#print axioms Verif.C82_receiver_1033
#print axioms Verif.C82_text_1029
#print axioms Verif.C82_proprietary_4062
#print axioms Verif.C82_glonass_biases_partial
#print axioms Verif.Msm.C83_msm_relayed
#print axioms Verif.Msm.C83_high_resolution_not_written
