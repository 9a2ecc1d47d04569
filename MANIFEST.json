{
 "claims": [
  {
   "property": "C01",
   "status": "proved",
   "theorems": [
    "Verif.Props.C01_unflagged_reaches",
    "Verif.Props.C01_unflagged_exact",
    "Verif.Props.C01_total"
   ],
   "note": ""
  },
  {
   "property": "C02",
   "status": "proved",
   "theorems": [
    "Verif.Props.C02_in_range"
   ],
   "note": ""
  },
  {
   "property": "C03",
   "status": "proved",
   "theorems": [
    "Verif.Props.C03_outside_flagged",
    "Verif.Props.C03_annulus_is_reach",
    "Verif.Props.C03_flag_iff",
    "Verif.Props.C03_no_guess_misses_reachable"
   ],
   "note": ""
  },
  {
   "property": "C04",
   "status": "proved",
   "theorems": [
    "Verif.Props.C04_closest_approach",
    "Verif.Props.C04_rim"
   ],
   "note": ""
  },
  {
   "property": "C05",
   "status": "proved",
   "theorems": [
    "Verif.Props.C05_guess_picks_nearest",
    "Verif.Props.C05_guess_round_trip",
    "Verif.Props.C05_far_guess_ignored"
   ],
   "note": ""
  },
  {
   "property": "C06",
   "status": "proved",
   "theorems": [
    "Verif.Props.C06_wrap"
   ],
   "note": ""
  },
  {
   "property": "C07",
   "status": "proved",
   "theorems": [
    "Verif.Props.C07_xy2tp_round_trip",
    "Verif.Props.C07_int_loc_int",
    "Verif.Props.C07_int_loc_int_guess"
   ],
   "note": ""
  },
  {
   "property": "C08",
   "status": "proved",
   "theorems": [
    "Verif.Props.C08_delta_angle",
    "Verif.Props.C08_delta_angle_array",
    "Verif.Props.C08_scalar_start_vector_final_raises",
    "Verif.Props.C08_docstring_turns"
   ],
   "note": ""
  },
  {
   "property": "C09",
   "status": "proved",
   "theorems": [
    "Verif.Props.C09_offsets_inverse",
    "Verif.Props.C09_offsets_pointwise",
    "Verif.Props.C09_loop"
   ],
   "note": ""
  },
  {
   "property": "C10",
   "status": "proved",
   "theorems": [
    "Verif.Props.C10_distances",
    "Verif.Props.C10_orientation",
    "Verif.Props.C10_inverse",
    "Verif.Props.C10_rotation_sense",
    "Verif.Props.C10_table"
   ],
   "note": ""
  },
  {
   "property": "C11",
   "status": "proved",
   "theorems": [
    "Verif.Props.C11_table_increasing",
    "Verif.Props.C11_r_s",
    "Verif.Props.C11_r_n",
    "Verif.Props.C11_s_n",
    "Verif.Props.C11_nodes",
    "Verif.Props.C11_z2r_always_nan",
    "Verif.Props.C11_r2z_defined"
   ],
   "note": ""
  },
  {
   "property": "C12",
   "status": "proved",
   "theorems": [
    "Verif.Props.C12_radius_round_trip",
    "Verif.Props.C12_increasing",
    "Verif.Props.C12_qs_round_trip",
    "Verif.Props.C12_uv_flat",
    "Verif.Props.C12_centre_residual"
   ],
   "note": ""
  },
  {
   "property": "C13",
   "status": "proved",
   "theorems": [
    "Verif.Props.C13_put360",
    "Verif.Props.C13_arctan2d",
    "Verif.Props.C13_mjd2lst",
    "Verif.Props.C13_average"
   ],
   "note": ""
  },
  {
   "property": "C14",
   "status": "proved",
   "theorems": [
    "Verif.Props.C14_inverse",
    "Verif.Props.C14_inverse_coordinates",
    "Verif.Props.C14_range",
    "Verif.Props.C14_rotation",
    "Verif.Props.C14_sense"
   ],
   "note": ""
  },
  {
   "property": "C15",
   "status": "proved",
   "theorems": [
    "Verif.Props.C15_composes",
    "Verif.Props.C15_inverse",
    "Verif.Props.C15_rotation",
    "Verif.Props.C15_rate",
    "Verif.Props.C15_epoch"
   ],
   "note": ""
  },
  {
   "property": "C16",
   "status": "proved",
   "theorems": [
    "Verif.Props.C16_inverse",
    "Verif.Props.C16_inverse_coordinates",
    "Verif.Props.C16_geometry",
    "Verif.Props.C16_altitude_range"
   ],
   "note": ""
  },
  {
   "property": "C17",
   "status": "proved",
   "theorems": [
    "Verif.Props.C17_pointing_origin",
    "Verif.Props.C17_projection",
    "Verif.Props.C17_inverse",
    "Verif.Props.C17_inverse_disc"
   ],
   "note": ""
  },
  {
   "property": "C18",
   "status": "proved",
   "theorems": [
    "Verif.Props.C18_rodrigues",
    "Verif.Props.C18_axis_to_axis",
    "Verif.Props.C18_obtuse_fails",
    "Verif.Props.C18_polar_misalignment",
    "Verif.Props.C18_hardcoded_rotation",
    "Verif.Props.C18_hardcoded_inverse",
    "Verif.Props.C18_mount_pole"
   ],
   "note": ""
  },
  {
   "property": "C19",
   "status": "proved",
   "theorems": [
    "Verif.Props.C19_pointing_origin",
    "Verif.Props.C19_hexrot",
    "Verif.Props.C19_hexrot_undone",
    "Verif.Props.C19_disc",
    "Verif.Props.C19_round_trip"
   ],
   "note": ""
  },
  {
   "property": "C20",
   "status": "proved",
   "theorems": [
    "Verif.Props.C20_raises",
    "Verif.Props.C20_order",
    "Verif.Props.C20_order_fails_at_horizon",
    "Verif.Props.C20_undo"
   ],
   "note": ""
  },
  {
   "property": "C21",
   "status": "proved",
   "theorems": [
    "Verif.Props.C21_inverse",
    "Verif.Props.C21_apply",
    "Verif.Props.C21_field_correction",
    "Verif.Props.C21_tancorr_offset_applied_twice"
   ],
   "note": ""
  },
  {
   "property": "C22",
   "status": "proved",
   "theorems": [
    "Verif.Props.C22_new",
    "Verif.Props.C22_exact",
    "Verif.Props.C22_optimal",
    "Verif.Props.C22_no_leak",
    "Verif.Props.C22_no_leak_exact",
    "Verif.Props.C22_stale_rotation",
    "Verif.Props.C22_stale_rotation_witness",
    "Verif.Props.C22_solid_exact",
    "Verif.Props.C22_solid_not_optimal"
   ],
   "note": ""
  },
  {
   "property": "C23",
   "status": "proved",
   "theorems": [
    "Verif.Props.C23_simplecorr_unreadable",
    "Verif.Props.C23_tancorr_unreadable",
    "Verif.Props.C23_simplecorr_fields",
    "Verif.Props.C23_tancorr_fields",
    "Verif.Props.C23_fieldmodel",
    "Verif.Props.C23_fieldmodel_same_iff",
    "Verif.Props.C23_fvc2fp",
    "Verif.Props.C23_fvc2fp_unfitted",
    "Verif.Props.C23_fvc2fp_versions",
    "Verif.Props.C23_raytrace",
    "Verif.Props.C23_raytrace_malformed",
    "Verif.Props.C23_fvc2fp_attributes"
   ],
   "note": ""
  },
  {
   "property": "C24",
   "status": "proved",
   "theorems": [
    "Verif.Props.C24_distortion",
    "Verif.Props.C24_reduce_expand",
    "Verif.Props.C24_normalisation",
    "Verif.Props.C24_residual",
    "Verif.Props.C24_contraction",
    "Verif.Props.C24_exact_linear",
    "Verif.Props.C24_empty",
    "Verif.Props.C24_forward"
   ],
   "note": ""
  },
  {
   "property": "C25",
   "status": "proved",
   "theorems": [
    "Verif.Props.C25_curl_free",
    "Verif.Props.C25_divergence_free",
    "Verif.Props.C25_unknown_id",
    "Verif.Props.C25_sum",
    "Verif.Props.C25_linear",
    "Verif.Props.C25_zero",
    "Verif.Props.C25_distortion_curl_free"
   ],
   "note": ""
  },
  {
   "property": "C26",
   "status": "proved",
   "theorems": [
    "Verif.Props.C26_noll_error",
    "Verif.Props.C26_noll_valid",
    "Verif.Props.C26_noll_bijective",
    "Verif.Props.C26_wyant_bijective"
   ],
   "note": ""
  },
  {
   "property": "C27",
   "status": "proved",
   "theorems": [
    "Verif.Props.C27_mean",
    "Verif.Props.C27_mean_turns",
    "Verif.Props.C27_mean_advance",
    "Verif.Props.C27_delta",
    "Verif.Props.C27_equivariance",
    "Verif.Props.C27_equivariance_inverse",
    "Verif.Props.C27_turns",
    "Verif.Props.C27_inverse"
   ],
   "note": ""
  },
  {
   "property": "C28",
   "status": "proved",
   "theorems": [
    "Verif.Props.C28_names",
    "Verif.Props.C28_negative",
    "Verif.Props.C28_mask",
    "Verif.Props.C28_mask_undefined",
    "Verif.Props.C28_mask_number",
    "Verif.Props.C28_bitnum",
    "Verif.Props.C28_roundtrip",
    "Verif.Props.C28_zero",
    "Verif.Props.C28_all_names",
    "Verif.Props.MoveFlags.C28_posflags"
   ],
   "note": ""
  },
  {
   "property": "C29",
   "status": "proved",
   "theorems": [
    "Verif.Props.C29_accepts",
    "Verif.Props.C29_rejects",
    "Verif.Props.C29_blank",
    "Verif.Props.C29_blanks"
   ],
   "note": ""
  },
  {
   "property": "C30",
   "status": "proved",
   "theorems": [
    "Verif.Props.C30_match_same",
    "Verif.Props.C30_keep_duplicates",
    "Verif.Props.C30_empty_second"
   ],
   "note": ""
  },
  {
   "property": "C31",
   "status": "proved",
   "theorems": [
    "Verif.Props.C31_consistent",
    "Verif.Props.C31_error",
    "Verif.Props.C31_exact"
   ],
   "note": ""
  },
  {
   "property": "C32",
   "status": "proved",
   "theorems": [
    "Verif.Props.C32_key_join"
   ],
   "note": ""
  },
  {
   "property": "C33",
   "status": "proved",
   "theorems": [
    "Verif.Props.C33_assignment",
    "Verif.Props.C33_alternatives",
    "Verif.Props.C33_duplicate_ids",
    "Verif.Props.C33_nothing_in_range",
    "Verif.Props.C33_nothing_in_range_error",
    "Verif.Props.C33_out_of_reach"
   ],
   "note": ""
  },
  {
   "property": "C34",
   "status": "proved",
   "theorems": [
    "Verif.Props.C34_first_call",
    "Verif.Props.C34_console_once",
    "Verif.Props.C34_invalid",
    "Verif.Props.C34_path_ignored"
   ],
   "note": ""
  },
  {
   "property": "C35",
   "status": "proved",
   "theorems": [
    "Verif.Props.C35_labels",
    "Verif.Props.C35_history",
    "Verif.Props.C35_exact",
    "Verif.Props.C35_stale",
    "Verif.Props.C35_history_matters"
   ],
   "note": ""
  },
  {
   "property": "C36",
   "status": "proved",
   "theorems": [
    "Verif.Props.C36_pairing",
    "Verif.Props.C36_pairs",
    "Verif.Props.C36_last_digit",
    "Verif.Props.C36_collision",
    "Verif.Props.C36_update",
    "Verif.Props.C36_row_order",
    "Verif.Props.C36_fit",
    "Verif.Props.FvcOptimal.C36_optimal",
    "Verif.Props.FvcOptimal.C36_exact",
    "Verif.Props.C36_goodness"
   ],
   "note": ""
  },
  {
   "property": "C37",
   "status": "proved",
   "theorems": [
    "Verif.Props.C37_average",
    "Verif.Props.C37_two_tables",
    "Verif.Props.C37_copies"
   ],
   "note": ""
  },
  {
   "property": "C38",
   "status": "proved",
   "theorems": [
    "Verif.Props.C38_fast_exact",
    "Verif.Props.C38_fit_exact",
    "Verif.Props.C38_fit_range",
    "Verif.Props.C38_three_points",
    "Verif.Props.C38_three_points_rejected",
    "Verif.Props.C38_robust",
    "Verif.Props.C38_robust_one_outlier",
    "Verif.Props.C38_robust_second_outlier",
    "Verif.Props.C38_robust_clean",
    "Verif.Props.C38_zero_scatter",
    "Verif.Props.C38_similarity",
    "Verif.Props.CirclesOutcome.C38_robust_outcome"
   ],
   "note": ""
  },
  {
   "property": "C39",
   "status": "proved",
   "theorems": [
    "Verif.Props.C39_formula",
    "Verif.Props.C39_every_string",
    "Verif.Props.C39_none",
    "Verif.Props.C39_empty_clause"
   ],
   "note": ""
  },
  {
   "property": "C40",
   "status": "proved",
   "theorems": [
    "Verif.Props.C40_row_index",
    "Verif.Props.C40_windows",
    "Verif.Props.C40_inside",
    "Verif.Props.C40_tail_unused",
    "Verif.Props.C40_no_datum",
    "Verif.Props.C40_single"
   ],
   "note": ""
  },
  {
   "property": "C41",
   "status": "proved",
   "theorems": [
    "Verif.Props.C41_rows",
    "Verif.Props.C41_first_kept",
    "Verif.Props.C41_idempotent",
    "Verif.Props.C41_cruise_first_row"
   ],
   "note": ""
  },
  {
   "property": "C42",
   "status": "proved",
   "theorems": [
    "Verif.Props.C42_one_file",
    "Verif.Props.C42_invalid_table",
    "Verif.Props.C42_too_few",
    "Verif.Props.C42_done",
    "Verif.Props.C42_read",
    "Verif.Props.C42_empty_table",
    "Verif.Props.C42_same_time",
    "Verif.Props.C42_new_sequence",
    "Verif.Props.C42_sequence_ten",
    "Verif.Props.C42_one_location",
    "Verif.Props.C42_enabled"
   ],
   "note": ""
  },
  {
   "property": "C43",
   "status": "proved",
   "theorems": [
    "Verif.Props.C43_pass",
    "Verif.Props.C43_default_leak",
    "Verif.Props.C43_windows_share",
    "Verif.Props.C43_known_leak"
   ],
   "note": ""
  },
  {
   "property": "C44",
   "status": "proved",
   "theorems": [
    "Verif.Props.C44_commit",
    "Verif.Props.C44_checked",
    "Verif.Props.C44_never_writes"
   ],
   "note": ""
  },
  {
   "property": "C45",
   "status": "proved",
   "theorems": [
    "Verif.Props.C45_unique",
    "Verif.Props.C45_answers",
    "Verif.Props.C45_wrong_row"
   ],
   "note": ""
  },
  {
   "property": "C46",
   "status": "proved",
   "theorems": [
    "Verif.Props.C46_all_offered",
    "Verif.Props.C46_first_line",
    "Verif.Props.C46_unoffered_answer",
    "Verif.Props.C46_adjust_exit",
    "Verif.Props.C46_adjust_ends"
   ],
   "note": ""
  },
  {
   "property": "C47",
   "status": "proved",
   "theorems": [
    "Verif.Props.C47_messages",
    "Verif.Props.C47_written_despite_mismatch",
    "Verif.Props.C47_filled",
    "Verif.Props.C47_location",
    "Verif.Props.C47_missing_column"
   ],
   "note": ""
  },
  {
   "property": "C48",
   "status": "proved",
   "theorems": [
    "Verif.Props.C48_join",
    "Verif.Props.C48_latest",
    "Verif.Props.C48_too_early",
    "Verif.Props.C48_measured",
    "Verif.Props.C48_history",
    "Verif.Props.C48_history_fails",
    "Verif.Props.C48_posids",
    "Verif.Props.C48_movers"
   ],
   "note": ""
  },
  {
   "property": "C49",
   "status": "proved",
   "theorems": [
    "Verif.Props.C49_groups",
    "Verif.Props.C49_zero",
    "Verif.Props.C49_html_drops_rest",
    "Verif.Props.C49_ok2move",
    "Verif.Props.C49_too_few"
   ],
   "note": ""
  },
  {
   "property": "C50",
   "status": "proved",
   "theorems": [
    "Verif.Props.C50_disjoint",
    "Verif.Props.C50_independent",
    "Verif.Props.C50_maximal",
    "Verif.Props.C50_distance",
    "Verif.Props.C50_asymmetric"
   ],
   "note": ""
  },
  {
   "property": "C51",
   "status": "proved",
   "theorems": [
    "Verif.Props.C51_jobs",
    "Verif.Props.C51_names",
    "Verif.Props.C51_history",
    "Verif.Props.C51_failure_not_retried"
   ],
   "note": ""
  },
  {
   "property": "C52",
   "status": "proved",
   "theorems": [
    "Verif.Props.C52_fresh",
    "Verif.Props.C52_history",
    "Verif.Props.C52_collision",
    "Verif.Props.C52_gz",
    "Verif.Props.C52_other"
   ],
   "note": ""
  },
  {
   "property": "C53",
   "status": "proved",
   "theorems": [
    "Verif.Props.C53_invalid",
    "Verif.Props.C53_code",
    "Verif.Props.C53_zero_without_output",
    "Verif.Props.C53_sequence_names",
    "Verif.Props.C53_last",
    "Verif.Props.C53_last_misses"
   ],
   "note": ""
  },
  {
   "property": "C54",
   "status": "proved",
   "theorems": [
    "Verif.Props.C54_well_posed",
    "Verif.Props.C54_excludeself",
    "Verif.Props.C54_smooth",
    "Verif.Props.C54_predict_at",
    "Verif.Props.C54_gradwavefront",
    "Verif.Props.C54_own_offset_unused",
    "Verif.Props.C54_gradwavefront_uses_self",
    "Verif.Props.C54_rejected",
    "Verif.Props.C54_shift",
    "Verif.Props.C54_correct",
    "Verif.Props.C54_correct_nothing",
    "Verif.Props.C54_stationary_unclipped",
    "Verif.Props.C54_stationary_clipped",
    "Verif.Props.C54_stationary_nonfinite",
    "Verif.Props.C54_stationary_clip_value"
   ],
   "note": ""
  },
  {
   "property": "C55",
   "status": "proved",
   "theorems": [
    "Verif.Props.C55_template_reuse",
    "Verif.Props.C55_parallel_equals_serial",
    "Verif.Props.C55_accepted",
    "Verif.Props.C55_best_angle",
    "Verif.Props.C55_one_scale_spoils",
    "Verif.Props.C55_rounding"
   ],
   "note": ""
  },
  {
   "property": "C56",
   "status": "proved",
   "theorems": [
    "Verif.Props.C56_error",
    "Verif.Props.C56_value",
    "Verif.Props.C56_bounded",
    "Verif.Props.C56_periodic"
   ],
   "note": ""
  },
  {
   "property": "C57",
   "status": "proved",
   "theorems": [
    "Verif.Props.C57_arguments",
    "Verif.Props.C57_adc_angles",
    "Verif.Props.C57_adc_difference",
    "Verif.Props.C57_fieldrot",
    "Verif.Props.C57_realised",
    "Verif.Props.C57_steps",
    "Verif.Props.C57_round_trip",
    "Verif.Props.C57_platemaker_order",
    "Verif.Props.C57_pointing_step",
    "Verif.Props.C57_pointing_neutral",
    "Verif.Props.C57_flat"
   ],
   "note": ""
  },
  {
   "property": "C58",
   "status": "proved",
   "theorems": [
    "Verif.Props.C58_small_image",
    "Verif.Props.C58_no_close_pairs",
    "Verif.Props.C58_pass",
    "Verif.Props.C58_brightest_kept",
    "Verif.Props.C58_only_removes",
    "Verif.Props.C58_coincident",
    "Verif.Props.C58_hundred",
    "Verif.Props.C58_peaks",
    "Verif.Props.C58_detectspots",
    "Verif.Props.C58_position"
   ],
   "note": ""
  },
  {
   "property": "C59",
   "status": "proved",
   "theorems": [
    "Verif.Props.C59_text",
    "Verif.Props.C59_tuple",
    "Verif.Props.C59_errors",
    "Verif.Props.C59_only"
   ],
   "note": ""
  },
  {
   "property": "C60",
   "status": "proved",
   "theorems": [
    "Verif.Props.C60_bijection",
    "Verif.Props.C60_layout",
    "Verif.Props.C60_unknown"
   ],
   "note": ""
  },
  {
   "property": "C61",
   "status": "proved",
   "theorems": [
    "Verif.Props.C61_aberration",
    "Verif.Props.C61_size"
   ],
   "note": ""
  },
  {
   "property": "C62",
   "status": "proved",
   "theorems": [
    "Verif.Props.C62_solvable",
    "Verif.Props.C62_exact",
    "Verif.Props.C62_optimal",
    "Verif.Props.C62_unknown_id"
   ],
   "note": ""
  },
  {
   "property": "C63",
   "status": "proved",
   "theorems": [
    "Verif.Props.Spotmatch.C63_measured",
    "Verif.Props.Spotmatch.C63_targets",
    "Verif.Props.Spotmatch.C63_fiducial_config",
    "Verif.Props.Spotmatch.C63_offsets_zero",
    "Verif.Props.Spotmatch.C63_pixel_scale",
    "Verif.Props.Spotmatch.C63_reach",
    "Verif.Props.Spotmatch.C63_default_transform",
    "Verif.Props.Spotmatch.C63_failure",
    "Verif.Props.Spotmatch.C63_result",
    "Verif.Props.Spotmatch.C63_other_lines",
    "Verif.Props.Spotmatch.C63_stale",
    "Verif.Props.Spotmatch.C63_unknown_location",
    "Verif.Props.Spotmatch.C63_truncated"
   ],
   "note": ""
  },
  {
   "property": "C64",
   "status": "proved",
   "theorems": [
    "Verif.Props.Gfa2fp.C64_exact",
    "Verif.Props.Gfa2fp.C64_least_squares",
    "Verif.Props.Gfa2fp.C64_missing",
    "Verif.Props.Gfa2fp.C64_incomplete",
    "Verif.Props.Gfa2fp.C64_cached",
    "Verif.Props.Gfa2fp.C64_all_petals"
   ],
   "note": ""
  },
  {
   "property": "C65",
   "status": "proved",
   "theorems": [
    "Verif.Props.MoveFlags.C65_flag",
    "Verif.Props.MoveFlags.C65_rejected",
    "Verif.Props.MoveFlags.C65_stuck",
    "Verif.Props.MoveFlags.C65_moving",
    "Verif.Props.MoveFlags.C65_phi_never"
   ],
   "note": ""
  },
  {
   "property": "C66",
   "status": "proved",
   "theorems": [
    "Verif.Props.Dm2pm.C66_fresh",
    "Verif.Props.Dm2pm.C66_roundtrip",
    "Verif.Props.Dm2pm.C66_refused",
    "Verif.Props.Dm2pm.C66_least_squares",
    "Verif.Props.Dm2pm.C66_exact",
    "Verif.Props.Dm2pm.C66_affine",
    "Verif.Props.Dm2pm.C66_cross",
    "Verif.Props.Dm2pm.C66_fails_iff",
    "Verif.Props.Dm2pm.C66_half_updated"
   ],
   "note": ""
  },
  {
   "property": "C67",
   "status": "proved",
   "theorems": [
    "Verif.Props.FieldFit.C67_fails_iff",
    "Verif.Props.FieldFit.C67_least_squares",
    "Verif.Props.FieldFit.C67_exact",
    "Verif.Props.FieldFit.C67_nan",
    "Verif.Props.FieldFit.C67_identity_nan"
   ],
   "note": ""
  },
  {
   "property": "C68",
   "status": "proved",
   "theorems": [
    "Verif.Props.FieldModel.C68_proper_motion",
    "Verif.Props.FieldModel.C68_no_motion",
    "Verif.Props.FieldModel.C68_refused",
    "Verif.Props.FieldModel.C68_mjd",
    "Verif.Props.FieldModel.C68_wrap"
   ],
   "note": ""
  },
  {
   "property": "C69",
   "status": "proved",
   "theorems": [
    "Verif.Props.FieldModel.C69_inputs",
    "Verif.Props.FieldModel.C69_stale_lst",
    "Verif.Props.FieldModel.C69_exact",
    "Verif.Props.FieldModel.C69_no_rotation_nan",
    "Verif.Props.FieldPointing.C69_pointing",
    "Verif.Props.FieldPointing.C69_fixed"
   ],
   "note": ""
  },
  {
   "property": "C70",
   "status": "proved",
   "theorems": [
    "Verif.Props.FieldModel.C70_value",
    "Verif.Props.FieldModel.C70_not_the_angle",
    "Verif.Props.FieldModel.C70_bounded"
   ],
   "note": ""
  },
  {
   "property": "C71",
   "status": "proved",
   "theorems": [
    "Verif.Props.FitLoop.C71_outliers",
    "Verif.Props.FitLoop.C71_all_used",
    "Verif.Props.FitLoop.C71_rms",
    "Verif.Props.FitLoop.C71_too_few",
    "Verif.Props.FitLoop.C71_static_exact",
    "Verif.Props.FitLoop.C71_dynamic_exact",
    "Verif.Props.FitLoop.C71_degenerate",
    "Verif.Props.FitLoop.C71_rehomed",
    "Verif.Props.FitLoop.C71_twenty",
    "Verif.Props.FitLoop.C71_too_few_witness",
    "Verif.Props.FitLoop.C71_defaults",
    "Verif.Props.C71_drift_names"
   ],
   "note": ""
  },
  {
   "property": "C72",
   "status": "proved",
   "theorems": [
    "Verif.Props.TurbPoly.C72_outside",
    "Verif.Props.TurbPoly.C72_prediction",
    "Verif.Props.TurbPoly.C72_exact",
    "Verif.Props.TurbPoly.C72_translation",
    "Verif.Props.TurbPoly.C72_self",
    "Verif.Props.TurbPoly.C72_isolated"
   ],
   "note": ""
  },
  {
   "property": "C73",
   "status": "proved",
   "theorems": [
    "Verif.Props.TurbFiles.C73_loss_independent",
    "Verif.Props.TurbFiles.C73_loss_gradwavefront",
    "Verif.Props.TurbFiles.C73_loss_docstring",
    "Verif.Props.TurbFiles.C73_make_data",
    "Verif.Props.TurbFiles.C73_files",
    "Verif.Props.TurbFiles.C73_files_errors",
    "Verif.Props.TurbFiles.C73_central"
   ],
   "note": ""
  },
  {
   "property": "C74",
   "status": "proved",
   "theorems": [
    "Verif.Props.Echo22.C74_round_trip_fp",
    "Verif.Props.Echo22.C74_round_trip_tan",
    "Verif.Props.Echo22.C74_rotation",
    "Verif.Props.Echo22.C74_origin",
    "Verif.Props.Echo22.C74_nan",
    "Verif.Props.Echo22.C74_scale",
    "Verif.Props.Echo22.C74_table",
    "Verif.Props.Echo22.C74_history"
   ],
   "note": ""
  },
  {
   "property": "C75",
   "status": "proved",
   "theorems": [
    "Verif.Props.MovingDetect.C75_moved",
    "Verif.Props.MovingDetect.C75_unmoved",
    "Verif.Props.MovingDetect.C75_rows",
    "Verif.Props.MovingDetect.C75_exact",
    "Verif.Props.MovingDetect.C75_neighbours",
    "Verif.Props.MovingDetect.C75_no_limit"
   ],
   "note": ""
  },
  {
   "property": "C76",
   "status": "proved",
   "theorems": [
    "Verif.Props.Int2ptl.C76_int2ptl",
    "Verif.Props.Int2ptl.C76_there_and_back",
    "Verif.Props.Int2ptl.C76_back_and_there"
   ],
   "note": ""
  },
  {
   "property": "C77",
   "status": "proved",
   "theorems": [
    "Verif.Props.PosCoords.C77_rows",
    "Verif.Props.PosCoords.C77_own_time",
    "Verif.Props.PosCoords.C77_success",
    "Verif.Props.PosCoords.C77_later_calibration",
    "Verif.Props.PosCoords.C77_early_move_of_another",
    "Verif.Props.PosCoords.C77_nothing",
    "Verif.Props.C77_no_moves"
   ],
   "note": ""
  },
  {
   "property": "C78",
   "status": "proved",
   "theorems": [
    "Verif.Props.FitCircles.C78_rows",
    "Verif.Props.FitCircles.C78_crash",
    "Verif.Props.FitCircles.C78_circle",
    "Verif.Props.FitCircles.C78_fiducial",
    "Verif.Props.FitCircles.C78_axis",
    "Verif.Props.FitCircles.C78_short_arc",
    "Verif.Props.FitCircles.C78_two_measurements"
   ],
   "note": ""
  },
  {
   "property": "C79",
   "status": "proved",
   "theorems": [
    "Verif.Props.FpMetrology.C79_base",
    "Verif.Props.FpMetrology.C79_start",
    "Verif.Props.FpMetrology.C79_replace",
    "Verif.Props.FpMetrology.C79_no_replacement",
    "Verif.Props.FpMetrology.C79_unpatched",
    "Verif.Props.FpMetrology.C79_unique",
    "Verif.Props.FpMetrology.C79_gfa",
    "Verif.Props.FpMetrology.C79_gfa_z",
    "Verif.Props.FpMetrology.C79_cheat",
    "Verif.Props.FpMetrology.C79_ids",
    "Verif.Props.FpMetrology.C79_file",
    "Verif.Props.C79_unknown_location"
   ],
   "note": ""
  },
  {
   "property": "C80",
   "status": "proved",
   "theorems": [
    "Verif.Props.GfaPatch.C80_fixed_point",
    "Verif.Props.GfaPatch.C80_rows",
    "Verif.Props.GfaPatch.C80_success",
    "Verif.Props.GfaPatch.C80_perpendicular",
    "Verif.Props.GfaPatch.C80_round_trip",
    "Verif.Props.C80_unknown_petal"
   ],
   "note": ""
  },
  {
   "property": "C81",
   "status": "proved",
   "theorems": [
    "Verif.Props.MovesFvc.C81_images",
    "Verif.Props.MovesFvc.C81_tables",
    "Verif.Props.MovesFvc.C81_same_name",
    "Verif.Props.MovesFvc.C81_measurements",
    "Verif.Props.MovesFvc.C81_rows",
    "Verif.Props.MovesFvc.C81_success",
    "Verif.Props.MovesFvc.C81_content",
    "Verif.Props.MovesFvc.C81_overwritten",
    "Verif.Props.MovesFvc.C81_minus",
    "Verif.Props.MovesFvc.C81_colon",
    "Verif.Props.MovesFvc.C81_null",
    "Verif.Props.C81_no_table"
   ],
   "note": ""
  },
  {
   "property": "C82",
   "status": "proved",
   "theorems": [
    "Verif.Props.MovesDates.C82_nearest",
    "Verif.Props.MovesDates.C82_rows",
    "Verif.Props.MovesDates.C82_success",
    "Verif.Props.MovesDates.C82_second_petal",
    "Verif.Props.MovesDates.C82_stops",
    "Verif.Props.C82_petals_agree",
    "Verif.Props.C82_no_calibration"
   ],
   "note": ""
  },
  {
   "property": "C83",
   "status": "proved",
   "theorems": [
    "Verif.Props.C83_read",
    "Verif.Props.C83_order",
    "Verif.Props.C83_files",
    "Verif.Props.C83_scales",
    "Verif.Props.C83_last_day",
    "Verif.Props.C83_matched_center",
    "Verif.Props.C83_zero",
    "Verif.Props.C83_flags_agree"
   ],
   "note": ""
  },
  {
   "property": "C84",
   "status": "proved",
   "theorems": [
    "Verif.Props.C84_tokens",
    "Verif.Props.C84_rows",
    "Verif.Props.C84_counter",
    "Verif.Props.C84_submove",
    "Verif.Props.C84_pieces",
    "Verif.Props.C84_correction",
    "Verif.Props.C84_success",
    "Verif.Props.C84_parents",
    "Verif.Props.C84_kept",
    "Verif.Props.C84_first_row",
    "Verif.Props.C84_orphan_left",
    "Verif.Props.C84_no_number",
    "Verif.Props.C84_token_order",
    "Verif.Props.C84_not_a_number",
    "Verif.Props.C84_empty",
    "Verif.Props.C84_components"
   ],
   "note": ""
  },
  {
   "property": "C85",
   "status": "proved",
   "theorems": [
    "Verif.Props.C85_tags",
    "Verif.Props.C85_tagged",
    "Verif.Props.C85_avoidances",
    "Verif.Props.C85_accepted",
    "Verif.Props.C85_sequence",
    "Verif.Props.C85_bare_sequence",
    "Verif.Props.C85_cut_name",
    "Verif.Props.C85_bare_avoidance"
   ],
   "note": ""
  },
  {
   "property": "C86",
   "status": "proved",
   "theorems": [
    "Verif.Props.C86_ceiling",
    "Verif.Props.C86_summary",
    "Verif.Props.C86_merged",
    "Verif.Props.C86_positioner",
    "Verif.Props.C86_stats",
    "Verif.Props.C86_median",
    "Verif.Props.C86_metadata",
    "Verif.Props.C86_dropped",
    "Verif.Props.C86_one_level",
    "Verif.Props.C86_meta_rejected",
    "Verif.Props.C86_empty"
   ],
   "note": ""
  },
  {
   "property": "C87",
   "status": "proved",
   "theorems": [
    "Verif.Props.C87_errors",
    "Verif.Props.C87_radii",
    "Verif.Props.C87_images",
    "Verif.Props.C87_images_within",
    "Verif.Props.C87_images_across",
    "Verif.Props.C87_dims",
    "Verif.Props.C87_submove",
    "Verif.Props.C87_submoves_lost",
    "Verif.Props.C87_condensed",
    "Verif.Props.C87_short",
    "Verif.Props.C87_same_name",
    "Verif.Props.C87_top"
   ],
   "note": ""
  },
  {
   "property": "C88",
   "status": "proved",
   "theorems": [
    "Verif.Props.C88_refit",
    "Verif.Props.C88_exact",
    "Verif.Props.C88_runs",
    "Verif.Props.C88_too_few",
    "Verif.Props.C88_rows",
    "Verif.Props.C88_theta",
    "Verif.Props.C88_other",
    "Verif.Props.C88_run",
    "Verif.Props.C88_unchanged",
    "Verif.Props.C88_fields",
    "Verif.Props.C88_unmatched",
    "Verif.Props.C88_shifted"
   ],
   "note": ""
  },
  {
   "property": "C89",
   "status": "proved",
   "theorems": [
    "Verif.Props.RayConic.C89_roots",
    "Verif.Props.RayConic.C89_no_linear",
    "Verif.Props.RayConic.C89_hit",
    "Verif.Props.RayConic.C89_lost",
    "Verif.Props.RayConic.C89_unmoved",
    "Verif.Props.RayConic.C89_back",
    "Verif.Props.RayConic.C89_plane",
    "Verif.Props.RayConic.C89_from_centre",
    "Verif.Props.RayConic.C89_phantom",
    "Verif.Props.RayConic.C89_grazing",
    "Verif.Props.RayConic.C89_coincident"
   ],
   "note": ""
  },
  {
   "property": "C90",
   "status": "proved",
   "theorems": [
    "Verif.Props.RayRedirect.C90_normal_unit",
    "Verif.Props.RayRedirect.C90_sag",
    "Verif.Props.RayRedirect.C90_normal",
    "Verif.Props.RayRedirect.C90_flange",
    "Verif.Props.RayRedirect.C90_mirror",
    "Verif.Props.RayRedirect.C90_mirror_length",
    "Verif.Props.RayRedirect.C90_mirror_twice",
    "Verif.Props.RayRedirect.C90_snell",
    "Verif.Props.RayRedirect.C90_tir",
    "Verif.Props.RayRedirect.C90_reversible",
    "Verif.Props.RayRedirect.C90_same_index",
    "Verif.Props.RayRedirect.C90_grazing",
    "Verif.Props.RayRedirect.C90_switch",
    "Verif.Props.RayRedirect.C90_last"
   ],
   "note": ""
  },
  {
   "property": "C91",
   "status": "proved",
   "theorems": [
    "Verif.Props.RayFrames.C91_angles",
    "Verif.Props.RayFrames.C91_rotation",
    "Verif.Props.RayFrames.C91_round_trip",
    "Verif.Props.RayFrames.C91_round_trip",
    "Verif.Props.RayFrames.C91_rigid",
    "Verif.Props.RayFrames.C91_handed",
    "Verif.Props.RayFrames.C91_line",
    "Verif.Props.RayFrames.C91_every_rotation"
   ],
   "note": ""
  },
  {
   "property": "C92",
   "status": "proved",
   "theorems": [
    "Verif.Props.RayAperture.C92_passes",
    "Verif.Props.RayAperture.C92_codes",
    "Verif.Props.RayAperture.C92_even",
    "Verif.Props.RayAperture.C92_double_roll"
   ],
   "note": ""
  },
  {
   "property": "C93",
   "status": "proved",
   "theorems": [
    "Verif.Props.RayPath.C93_step",
    "Verif.Props.RayPath.C93_path",
    "Verif.Props.RayPath.C93_lost",
    "Verif.Props.RayPath.C93_unit"
   ],
   "note": ""
  },
  {
   "property": "C94",
   "status": "proved",
   "theorems": [
    "Verif.Props.RayAdc.C94_roll",
    "Verif.Props.RayAdc.C94_rolls",
    "Verif.Props.RayAdc.C94_symmetric",
    "Verif.Props.RayAdc.C94_breaks",
    "Verif.Props.RayAdc.C94_adc",
    "Verif.Props.RayAdc.C94_modify",
    "Verif.Props.RayTurn.C94_turn",
    "Verif.Props.RayTurn.C94_turn_exists"
   ],
   "note": ""
  },
  {
   "property": "C95",
   "status": "proved",
   "theorems": [
    "Verif.Props.RayNewton.C95_converges",
    "Verif.Props.RayNewton.C95_asphere",
    "Verif.Props.RayNewton.C95_stays",
    "Verif.Props.RayNewton.C95_phantom",
    "Verif.Props.RayNewton.C95_zero_slope",
    "Verif.Props.C95_edge"
   ],
   "note": ""
  },
  {
   "property": "C96",
   "status": "proved",
   "theorems": [
    "Verif.Props.RayTables.C96_rays",
    "Verif.Props.RayTables.C96_ray_headers",
    "Verif.Props.RayTables.C96_media",
    "Verif.Props.RayTables.C96_refraction",
    "Verif.Props.RayTables.C96_numeric_glass",
    "Verif.Props.RayTables.C96_no_number",
    "Verif.Props.RayTables.C96_blank_index",
    "Verif.Props.RayTables.C96_unpack",
    "Verif.Props.RayTables.C96_first_number",
    "Verif.Props.RayTables.C96_headers",
    "Verif.Props.RayTables.C96_coefficient",
    "Verif.Props.RayTables.C96_bare_A",
    "Verif.Props.RayTables.C96_undefined_names",
    "Verif.Props.RayTables.C96_action",
    "Verif.Props.RayTables.C96_optics",
    "Verif.Props.RayTables.C96_optics_refused",
    "Verif.Props.RayTables.C96_comments"
   ],
   "note": ""
  },
  {
   "property": "C97",
   "status": "proved",
   "theorems": [
    "Verif.Props.RayCorotate.C97_corotate",
    "Verif.Props.RayDesi.C97_table",
    "Verif.Props.RayDesi.C97_desi",
    "Verif.Props.RayRun.C97_wave",
    "Verif.Props.RayRun.C97_negative_wave",
    "Verif.Props.RayRun.C97_aim",
    "Verif.Props.RayRun.C97_nine",
    "Verif.Props.RayRun.C97_uneven",
    "Verif.Props.RayRun.C97_scatter",
    "Verif.Props.RayRun.C97_first_angles",
    "Verif.Props.RayRun.C97_field",
    "Verif.Props.RayRun.C97_grid",
    "Verif.Props.RayRun.C97_cover",
    "Verif.Props.RayRun.C97_rings",
    "Verif.Props.RayRun.C97_rows",
    "Verif.Props.RayRun.C97_settings"
   ],
   "note": ""
  },
  {
   "property": "C98",
   "status": "proved",
   "theorems": [
    "Verif.Props.RayFit.C98_settings",
    "Verif.Props.RayFit.C98_key",
    "Verif.Props.RayFit.C98_collision",
    "Verif.Props.RayFit.C98_range",
    "Verif.Props.RayFit.C98_unusable",
    "Verif.Props.RayFit.C98_solvable",
    "Verif.Props.RayFit.C98_eight",
    "Verif.Props.RayFit.C98_setting",
    "Verif.Props.RayFit.C98_best",
    "Verif.Props.RayFit.C98_exact",
    "Verif.Props.RayFit.C98_opposite",
    "Verif.Props.RayFit.C98_total",
    "Verif.Props.RayFit.C98_run",
    "Verif.Props.C98_columns",
    "Verif.Props.C98_empty"
   ],
   "note": ""
  },
  {
   "property": "C99",
   "status": "proved",
   "theorems": [
    "Verif.Props.C99_bins",
    "Verif.Props.C99_default",
    "Verif.Props.C99_errors",
    "Verif.Props.C99_lengths",
    "Verif.Props.C99_total",
    "Verif.Props.C99_common_shift",
    "Verif.Props.C99_perm",
    "Verif.Props.C99_first"
   ],
   "note": ""
  },
  {
   "property": "C100",
   "status": "proved",
   "theorems": [
    "Verif.Props.C100_table",
    "Verif.Props.C100_dictionary",
    "Verif.Props.C100_exit",
    "Verif.Props.C100_propagation",
    "Verif.Props.C100_scaled"
   ],
   "note": ""
  },
  {
   "property": "C101",
   "status": "proved",
   "theorems": [
    "Verif.Props.C101_psf",
    "Verif.Props.C101_derivative",
    "Verif.Props.C101_total",
    "Verif.Props.C101_fails",
    "Verif.Props.C101_within_a_pixel",
    "Verif.Props.C101_transpose",
    "Verif.Props.C101_mirror",
    "Verif.Props.C101_scale",
    "Verif.Props.C101_symmetric",
    "Verif.Props.C101_exact",
    "Verif.Props.C101_errors",
    "Verif.Props.C101_barycenter",
    "Verif.Props.C101_convolve_bounds",
    "Verif.Props.C101_convolve_sum",
    "Verif.Props.C101_convolve_point"
   ],
   "note": ""
  },
  {
   "property": "C102",
   "status": "proved",
   "theorems": [
    "Verif.Props.Groupings.C102_match2d",
    "Verif.Props.Groupings.C102_possible",
    "Verif.Props.Groupings.C102_elbow",
    "Verif.Props.Groupings.C102_elbow_side",
    "Verif.Props.Groupings.C102_arms",
    "Verif.Props.Groupings.C102_lines",
    "Verif.Props.Groupings.C102_printed",
    "Verif.Props.Groupings.C102_uncalibrated",
    "Verif.Props.Groupings.C102_petal",
    "Verif.Props.Groupings.C102_petal_drops"
   ],
   "note": ""
  },
  {
   "property": "C103",
   "status": "proved",
   "theorems": [
    "Verif.Props.FvcColumns.C103_expected",
    "Verif.Props.FvcColumns.C103_default",
    "Verif.Props.FvcColumns.C103_match",
    "Verif.Props.FvcColumns.C103_match_none",
    "Verif.Props.FvcColumns.C103_join",
    "Verif.Props.FvcColumns.C103_turbulence",
    "Verif.Props.FvcColumns.C103_finish",
    "Verif.Props.FvcColumns.C103_spotmatch_overwrites",
    "Verif.Props.FvcColumns.C103_unexpected",
    "Verif.Props.FvcColumns.C103_radec",
    "Verif.Props.FvcColumns.C103_normal",
    "Verif.Props.FvcColumns.C103_centres"
   ],
   "note": ""
  },
  {
   "property": "C104",
   "status": "proved",
   "theorems": [
    "Verif.Props.CircleStart.C104_jacobian",
    "Verif.Props.CircleStart.C104_residuals",
    "Verif.Props.CircleStart.C104_gradient",
    "Verif.Props.CircleStart.C104_start_total",
    "Verif.Props.CircleStart.C104_start_majority",
    "Verif.Props.CircleStart.C104_start_exact",
    "Verif.Props.CircleStart.C104_start_stuck",
    "Verif.Props.CircleStart.C104_start_game_over",
    "Verif.Props.CircleStart.C104_start_used"
   ],
   "note": ""
  },
  {
   "property": "C105",
   "status": "proved",
   "theorems": [
    "Verif.Props.PredictRot.C105_options",
    "Verif.Props.PredictRot.C105_missing",
    "Verif.Props.PredictRot.C105_header",
    "Verif.Props.PredictRot.C105_header_keys",
    "Verif.Props.PredictRot.C105_hexpos",
    "Verif.Props.PredictRot.C105_bad_lst",
    "Verif.Props.PredictRot.C105_printed",
    "Verif.Props.PredictRot.C105_rate_hour_angle",
    "Verif.Props.PredictRot.C105_physical",
    "Verif.Props.PredictRot.C105_fit",
    "Verif.Props.PredictRot.C105_variables"
   ],
   "note": ""
  },
  {
   "property": "C106",
   "status": "proved",
   "theorems": [
    "Verif.Props.PatchUpdate.C106_update",
    "Verif.Props.PatchUpdate.C106_order",
    "Verif.Props.PatchUpdate.C106_again"
   ],
   "note": ""
  },
  {
   "property": "C107",
   "status": "proved",
   "theorems": [
    "Verif.Props.Distance.C107_distance",
    "Verif.Props.Distance.C107_listings",
    "Verif.Props.Distance.C107_counts",
    "Verif.Props.Distance.C107_moving",
    "Verif.Props.Distance.C107_centers"
   ],
   "note": ""
  },
  {
   "property": "C108",
   "status": "proved",
   "theorems": [
    "Verif.Props.PosparamsJobs.C108_recognised",
    "Verif.Props.PosparamsJobs.C108_last_file",
    "Verif.Props.PosparamsJobs.C108_one_process",
    "Verif.Props.PosparamsJobs.C108_processes",
    "Verif.Props.PosparamsJobs.C108_pool",
    "Verif.Props.PosparamsJobs.C108_petal_ids",
    "Verif.Props.PosparamsJobs.C108_latest",
    "Verif.Props.PosparamsJobs.C108_repeated",
    "Verif.Props.PosparamsJobs.C108_petal_zero"
   ],
   "note": ""
  },
  {
   "property": "C109",
   "status": "proved",
   "theorems": [
    "Verif.Props.PetalTest.C109_petal0",
    "Verif.Props.PetalTest.C109_petal0_stops",
    "Verif.Props.PetalTest.C109_five_digits",
    "Verif.Props.PetalTest.C109_identifier",
    "Verif.Props.PetalTest.C109_petal1",
    "Verif.Props.PetalTest.C109_petal1_stops",
    "Verif.Props.PetalTest.C109_one_mm",
    "Verif.Props.PetalTest.C109_fiducials",
    "Verif.Props.PetalTest.C109_exceptions",
    "Verif.Props.PetalTest.C109_no_etc"
   ],
   "note": ""
  },
  {
   "property": "C110",
   "status": "proved",
   "theorems": [
    "Verif.Props.Triangles.C110_triangles",
    "Verif.Props.Triangles.C110_listing",
    "Verif.Props.Triangles.C110_shape",
    "Verif.Props.Triangles.C110_similar",
    "Verif.Props.Triangles.C110_mirror",
    "Verif.Props.Triangles.C110_isosceles"
   ],
   "note": ""
  },
  {
   "property": "C111",
   "status": "proved",
   "theorems": [
    "Verif.Props.GuideFit.C111_written",
    "Verif.Props.GuideFit.C111_times",
    "Verif.Props.GuideFit.C111_nstars",
    "Verif.Props.GuideFit.C111_header_time",
    "Verif.Props.GuideFit.C111_no_pointing",
    "Verif.Props.GuideFit.C111_no_time",
    "Verif.Props.GuideFit.C111_directory"
   ],
   "note": ""
  },
  {
   "property": "C112",
   "status": "proved",
   "theorems": [
    "Verif.Props.Knees.C112_no_number",
    "Verif.Props.Knees.C112_pixels",
    "Verif.Props.Knees.C112_left_over",
    "Verif.Props.Knees.C112_knee",
    "Verif.Props.Knees.C112_turned",
    "Verif.Props.Knees.C112_table",
    "Verif.Props.Knees.C112_succeeds",
    "Verif.Props.Knees.C112_minccf",
    "Verif.Props.Knees.C112_petal_angle"
   ],
   "note": ""
  },
  {
   "property": "C113",
   "status": "proved",
   "theorems": [
    "Verif.Props.BinErrors.C113_status",
    "Verif.Props.BinErrors.C113_partition",
    "Verif.Props.BinErrors.C113_monotone",
    "Verif.Props.BinErrors.C113_latest",
    "Verif.Props.BinErrors.C113_result",
    "Verif.Props.BinErrors.C113_even",
    "Verif.Props.BinErrors.C113_edges",
    "Verif.Props.BinErrors.C113_errors",
    "Verif.Props.BinErrors.C113_others",
    "Verif.Props.BinErrors.C113_hues",
    "Verif.Props.BinErrors.C113_ticks",
    "Verif.Props.BinErrors.C113_no_ticks"
   ],
   "note": ""
  },
  {
   "property": "C114",
   "status": "proved",
   "theorems": [
    "Verif.Props.PmCoords.C114_flagged",
    "Verif.Props.PmCoords.C114_sky_not_flagged",
    "Verif.Props.PmCoords.C114_broken",
    "Verif.Props.PmCoords.C114_joined",
    "Verif.Props.PmCoords.C114_key_error",
    "Verif.Props.PmCoords.C114_written",
    "Verif.Props.PmCoords.C114_close",
    "Verif.Props.PmCoords.C114_sky_written",
    "Verif.Props.PmCoords.C114_classes",
    "Verif.Props.PmCoords.C114_good",
    "Verif.Props.PmCoords.C114_drawn",
    "Verif.Props.PmCoords.C114_counts",
    "Verif.Props.PmCoords.C114_disabled",
    "Verif.Props.PmCoords.C114_rms"
   ],
   "note": ""
  },
  {
   "property": "C115",
   "status": "proved",
   "theorems": [
    "Verif.Props.FvcResiduals.C115_exit",
    "Verif.Props.FvcResiduals.C115_lines",
    "Verif.Props.FvcResiduals.C115_large",
    "Verif.Props.FvcResiduals.C115_posid_missing",
    "Verif.Props.FvcResiduals.C115_wrong_spot",
    "Verif.Props.FvcResiduals.C115_fiducials",
    "Verif.Props.FvcResiduals.C115_matched",
    "Verif.Props.FvcResiduals.C115_matched_sum",
    "Verif.Props.FvcResiduals.C115_rms_lt",
    "Verif.Props.FvcResiduals.C115_all",
    "Verif.Props.FvcResiduals.C115_rms_le",
    "Verif.Props.FvcResiduals.C115_rms"
   ],
   "note": ""
  },
  {
   "property": "C116",
   "status": "proved",
   "theorems": [
    "Verif.Props.DitherCompare.C116_exposure",
    "Verif.Props.DitherCompare.C116_chi2",
    "Verif.Props.DitherCompare.C116_joined",
    "Verif.Props.DitherCompare.C116_zero_ra",
    "Verif.Props.DitherCompare.C116_tangent",
    "Verif.Props.DitherCompare.C116_wrapped",
    "Verif.Props.DitherCompare.C116_line",
    "Verif.Props.DitherCompare.C116_two",
    "Verif.Props.DitherCompare.C116_exact",
    "Verif.Props.DitherCompare.C116_range"
   ],
   "note": ""
  },
  {
   "property": "C117",
   "status": "proved",
   "theorems": [
    "Verif.Props.LegacyReq.C117_rows",
    "Verif.Props.LegacyReq.C117_last",
    "Verif.Props.LegacyReq.C117_command",
    "Verif.Props.LegacyReq.C117_other_command",
    "Verif.Props.LegacyReq.C117_ptl",
    "Verif.Props.LegacyReq.C117_obs",
    "Verif.Props.LegacyReq.C117_loc",
    "Verif.Props.LegacyReq.C117_tracked",
    "Verif.Props.LegacyReq.C117_external_angles",
    "Verif.Props.LegacyReq.C117_no_request",
    "Verif.Props.LegacyReq.C117_assertion",
    "Verif.Props.LegacyReq.C117_note",
    "Verif.Props.LegacyReq.C117_move_to_range"
   ],
   "note": ""
  },
  {
   "property": "C118",
   "status": "proved",
   "theorems": [
    "Verif.Props.PlotPosmoves.C118_expected",
    "Verif.Props.PlotPosmoves.C118_fitted",
    "Verif.Props.PlotPosmoves.C118_same",
    "Verif.Props.PlotPosmoves.C118_measured",
    "Verif.Props.PlotPosmoves.C118_height_used",
    "Verif.Props.PlotPosmoves.C118_height_ignored",
    "Verif.Props.PlotPosmoves.C118_low_z",
    "Verif.Props.PlotPosmoves.C118_image",
    "Verif.Props.PlotPosmoves.C118_distinct",
    "Verif.Props.PlotPosmoves.C118_overwritten",
    "Verif.Props.PlotPosmoves.C118_run"
   ],
   "note": ""
  },
  {
   "property": "C119",
   "status": "proved",
   "theorems": [
    "Verif.Props.PlotPosparams.C119_bins_set",
    "Verif.Props.PlotPosparams.C119_jobs",
    "Verif.Props.PlotPosparams.C119_counts",
    "Verif.Props.PlotPosparams.C119_when",
    "Verif.Props.PlotPosparams.C119_order",
    "Verif.Props.PlotPosparams.C119_skipped",
    "Verif.Props.PlotPosparams.C119_no_data",
    "Verif.Props.PlotPosparams.C119_unchecked",
    "Verif.Props.PlotPosparams.C119_repeated"
   ],
   "note": ""
  },
  {
   "property": "C120",
   "status": "proved",
   "theorems": [
    "Verif.Props.DataDir.C120_one_alignment",
    "Verif.Props.DataDir.C120_round_trip",
    "Verif.Props.DataDir.C120_first_use",
    "Verif.Props.DataDir.C120_retry",
    "Verif.Props.DataDir.C120_metrology",
    "Verif.Props.DataDir.C120_stale",
    "Verif.Props.DataDir.C120_one_gfa",
    "Verif.Props.DataDir.C120_first_gfa",
    "Verif.Props.DataDir.C120_written"
   ],
   "note": ""
  },
  {
   "property": "C121",
   "status": "proved",
   "theorems": [
    "Verif.Props.AlignExport.C121_run",
    "Verif.Props.AlignExport.C121_errors",
    "Verif.Props.AlignExport.C121_names",
    "Verif.Props.AlignExport.C121_used",
    "Verif.Props.AlignExport.C121_order"
   ],
   "note": ""
  },
  {
   "property": "C122",
   "status": "proved",
   "theorems": [
    "Verif.Props.Zernike.C122_edge",
    "Verif.Props.Zernike.C122_radial",
    "Verif.Props.Zernike.C122_orthogonal",
    "Verif.Props.Zernike.C122_noll",
    "Verif.Props.Zernike.C122_power",
    "Verif.Props.Zernike.C122_fields",
    "Verif.Props.Zernike.C122_unique"
   ],
   "note": ""
  },
  {
   "property": "C123",
   "status": "proved",
   "theorems": [
    "Verif.Props.Drawn.C123_canbus",
    "Verif.Props.Drawn.C123_buses",
    "Verif.Props.Drawn.C123_metrology",
    "Verif.Props.Drawn.C123_labels",
    "Verif.Props.Drawn.C123_highlighted",
    "Verif.Props.Drawn.C123_outlines",
    "Verif.Props.Drawn.C123_spots_ends",
    "Verif.Props.Drawn.C123_series",
    "Verif.Props.Drawn.C123_marked",
    "Verif.Props.Drawn.C123_positioner",
    "Verif.Props.Drawn.C123_once"
   ],
   "note": ""
  },
  {
   "property": "C124",
   "status": "proved",
   "theorems": [
    "Verif.Props.PetalData.C124_error",
    "Verif.Props.PetalData.C124_exact",
    "Verif.Props.PetalData.C124_tilted",
    "Verif.Props.PetalData.C124_shipped",
    "Verif.Props.PetalData.C124_chain",
    "Verif.Props.PetalData.C124_nominal",
    "Verif.Props.PetalData.C124_apart"
   ],
   "note": ""
  },
  {
   "property": "C125",
   "status": "proved",
   "theorems": [
    "Verif.Props.C125_aberration",
    "Verif.Props.C125_polar",
    "Verif.Props.C125_round_trip",
    "Verif.Props.C125_pole"
   ],
   "note": ""
  },
  {
   "property": "C126",
   "status": "proved",
   "theorems": [
    "Verif.Props.C126_error",
    "Verif.Props.C126_distinct",
    "Verif.Props.C126_field"
   ],
   "note": ""
  },
  {
   "property": "C127",
   "status": "proved",
   "theorems": [
    "Verif.Props.DetectEdge.C127_failures",
    "Verif.Props.DetectEdge.C127_edge",
    "Verif.Props.DetectImage.C127_robust",
    "Verif.Props.DetectImage.C127_flat",
    "Verif.Props.DetectImage.C127_noiseless",
    "Verif.Props.DetectImage.C127_background",
    "Verif.Props.DetectImage.C127_dark",
    "Verif.Props.DetectImage.C127_exposure",
    "Verif.Props.DetectMany.C127_spots",
    "Verif.Props.DetectMeasured.C127_measured",
    "Verif.Props.DetectMeasured.C127_spot"
   ],
   "note": ""
  },
  {
   "property": "C128",
   "status": "proved",
   "theorems": [
    "Verif.Props.DbQuery.C128_query",
    "Verif.Props.DbQuery.C128_petals",
    "Verif.Props.DbQuery.C128_unknown_petal",
    "Verif.Props.DbQuery.C128_import",
    "Verif.Props.DbQuery.C128_columns"
   ],
   "note": ""
  },
  {
   "property": "C129",
   "status": "proved",
   "theorems": [
    "Verif.Props.AngleErrors.C129_position",
    "Verif.Props.AngleErrors.C129_cos_phi",
    "Verif.Props.AngleErrors.C129_phi",
    "Verif.Props.AngleErrors.C129_theta",
    "Verif.Props.AngleErrors.C129_stretched"
   ],
   "note": ""
  },
  {
   "property": "C130",
   "status": "proved",
   "theorems": [
    "Verif.Props.PetalErrors.C130_flat",
    "Verif.Props.PetalErrors.C130_int2ptl",
    "Verif.Props.PetalErrors.C130_ptl2int"
   ],
   "note": ""
  },
  {
   "property": "C131",
   "status": "proved",
   "theorems": [
    "Verif.Props.FitNoise.C131_shared",
    "Verif.Props.FitNoise.C131_centre",
    "Verif.Props.FitNoise.C131_noise",
    "Verif.Props.FitNoise.C131_unique",
    "Verif.Props.FitNoise.C131_succeeds"
   ],
   "note": ""
  },
  {
   "property": "C132",
   "status": "proved",
   "theorems": [
    "Verif.Props.FitNoise2.C132_shared",
    "Verif.Props.FitNoise2.C132_noise",
    "Verif.Props.FitNoise2.C132_unique",
    "Verif.Props.FitNoise2.C132_superposition"
   ],
   "note": ""
  },
  {
   "property": "C133",
   "status": "proved",
   "theorems": [
    "Verif.Props.Shipped.C133_camera_back",
    "Verif.Props.Shipped.C133_camera",
    "Verif.Props.Shipped.C133_camera_scale",
    "Verif.Props.Shipped.C133_tables",
    "Verif.Props.Shipped.C133_sky",
    "Verif.Props.Shipped.C133_sky_back",
    "Verif.Props.Shipped.C133_sky_table",
    "Verif.Props.SkyScale.C133_sky_scale",
    "Verif.Props.SkyScale.C133_sky_error"
   ],
   "note": ""
  },
  {
   "property": "C134",
   "status": "proved",
   "theorems": [
    "Verif.Props.ImageToFocal.C134_near",
    "Verif.Props.ImageToFocal.C134_apart",
    "Verif.Props.ImageToFocal.C134_error"
   ],
   "note": ""
  }
 ]
}