import Verif.Props.AlignExport
import Verif.Props.AngleErrors
import Verif.Props.AverageCoord
import Verif.Props.BinErrors
import Verif.Props.Bitmask
import Verif.Props.Brightimage
import Verif.Props.Centroid
import Verif.Props.CircleStart
import Verif.Props.Circles
import Verif.Props.CirclesOutcome
import Verif.Props.CovTable
import Verif.Props.DataDir
import Verif.Props.DbQuery
import Verif.Props.Dbutil
import Verif.Props.DetectEdge
import Verif.Props.DetectImage
import Verif.Props.DetectMany
import Verif.Props.DetectMeasured
import Verif.Props.DetectSmall
import Verif.Props.Detectspots
import Verif.Props.Distance
import Verif.Props.DitherCompare
import Verif.Props.Dm2pm
import Verif.Props.Drawn
import Verif.Props.Echo22
import Verif.Props.EmpCovar
import Verif.Props.Fiberassign
import Verif.Props.FieldFit
import Verif.Props.FieldModel
import Verif.Props.FieldPointing
import Verif.Props.FieldRotRate
import Verif.Props.FindFiducials
import Verif.Props.FindFiducialsExact
import Verif.Props.FindFiducialsStale
import Verif.Props.FitCases
import Verif.Props.FitCircles
import Verif.Props.FitFilters
import Verif.Props.FitHandler
import Verif.Props.FitLoop
import Verif.Props.FitNoise
import Verif.Props.FitNoise2
import Verif.Props.Fitter
import Verif.Props.FpMetrology
import Verif.Props.Fvc2fp
import Verif.Props.FvcColumns
import Verif.Props.FvcFit
import Verif.Props.FvcJobs
import Verif.Props.FvcOptimal
import Verif.Props.FvcRefit
import Verif.Props.FvcResiduals
import Verif.Props.GetPosmoves
import Verif.Props.Gfa2fp
import Verif.Props.GfaPatch
import Verif.Props.Groupings
import Verif.Props.Groups
import Verif.Props.GuideFit
import Verif.Props.Hexrot
import Verif.Props.ImageToFocal
import Verif.Props.Int2ptl
import Verif.Props.Json
import Verif.Props.Knees
import Verif.Props.LegacyRequests
import Verif.Props.Log
import Verif.Props.Match
import Verif.Props.MatchPositioners
import Verif.Props.MatchTriangle
import Verif.Props.Merge
import Verif.Props.MoveFlags
import Verif.Props.MovesDates
import Verif.Props.MovesFvc
import Verif.Props.MovingDetect
import Verif.Props.Ok2move
import Verif.Props.PatchUpdate
import Verif.Props.PerfLabels
import Verif.Props.PerfMoves
import Verif.Props.PerfRead
import Verif.Props.PerfReport
import Verif.Props.PerfStats
import Verif.Props.PetalData
import Verif.Props.PetalErrors
import Verif.Props.PetalTest
import Verif.Props.PlotPosmoves
import Verif.Props.PlotPosparams
import Verif.Props.PmCoords
import Verif.Props.Pos2ptl
import Verif.Props.PosCoords
import Verif.Props.PosparamsJobs
import Verif.Props.PredictRot
import Verif.Props.Prepare
import Verif.Props.PrepareCommit
import Verif.Props.ProcessFvc
import Verif.Props.Ptl2fp
import Verif.Props.Radec2tan
import Verif.Props.RayAdc
import Verif.Props.RayAperture
import Verif.Props.RayConic
import Verif.Props.RayCorotate
import Verif.Props.RayDesi
import Verif.Props.RayFit
import Verif.Props.RayFrames
import Verif.Props.RayMedia
import Verif.Props.RayNewton
import Verif.Props.RayPath
import Verif.Props.RayRedirect
import Verif.Props.RayRun
import Verif.Props.RayTables
import Verif.Props.RayTurn
import Verif.Props.Raytracefit
import Verif.Props.Rszn
import Verif.Props.Selection
import Verif.Props.Shipped
import Verif.Props.SimpleCorr
import Verif.Props.Sky
import Verif.Props.SkyError
import Verif.Props.SkyRoundTrip
import Verif.Props.SkyScale
import Verif.Props.Spotmatch
import Verif.Props.Tighten
import Verif.Props.Tighten2
import Verif.Props.Triangles
import Verif.Props.Trig
import Verif.Props.TurbFiles
import Verif.Props.TurbPoly
import Verif.Props.TurbPolyEx
import Verif.Props.Turbulence
import Verif.Props.Util
import Verif.Props.Xy2qs
import Verif.Props.Xy2tp
import Verif.Props.XyRim
import Verif.Props.Zernike
import Verif.Props.ZhaoBurge

/-!
Axioms of every property theorem; the build log should list only
`propext`, `Classical.choice` and `Quot.sound`.
-/

#print axioms Verif.Props.C01_unflagged_reaches
#print axioms Verif.Props.C01_unflagged_exact
#print axioms Verif.Props.C01_total
#print axioms Verif.Props.C02_in_range
#print axioms Verif.Props.C03_outside_flagged
#print axioms Verif.Props.C03_annulus_is_reach
#print axioms Verif.Props.C03_flag_iff
#print axioms Verif.Props.C03_no_guess_misses_reachable
#print axioms Verif.Props.C04_closest_approach
#print axioms Verif.Props.C04_rim
#print axioms Verif.Props.C05_guess_picks_nearest
#print axioms Verif.Props.C05_guess_round_trip
#print axioms Verif.Props.C05_far_guess_ignored
#print axioms Verif.Props.C06_wrap
#print axioms Verif.Props.C07_xy2tp_round_trip
#print axioms Verif.Props.C07_int_loc_int
#print axioms Verif.Props.C07_int_loc_int_guess
#print axioms Verif.Props.C08_delta_angle
#print axioms Verif.Props.C08_delta_angle_array
#print axioms Verif.Props.C08_scalar_start_vector_final_raises
#print axioms Verif.Props.C08_docstring_turns
#print axioms Verif.Props.C09_offsets_inverse
#print axioms Verif.Props.C09_offsets_pointwise
#print axioms Verif.Props.C09_loop
#print axioms Verif.Props.C10_distances
#print axioms Verif.Props.C10_orientation
#print axioms Verif.Props.C10_inverse
#print axioms Verif.Props.C10_rotation_sense
#print axioms Verif.Props.C10_table
#print axioms Verif.Props.C11_table_increasing
#print axioms Verif.Props.C11_r_s
#print axioms Verif.Props.C11_r_n
#print axioms Verif.Props.C11_s_n
#print axioms Verif.Props.C11_nodes
#print axioms Verif.Props.C11_z2r_always_nan
#print axioms Verif.Props.C11_r2z_defined
#print axioms Verif.Props.C12_radius_round_trip
#print axioms Verif.Props.C12_increasing
#print axioms Verif.Props.C12_qs_round_trip
#print axioms Verif.Props.C12_uv_flat
#print axioms Verif.Props.C12_centre_residual
#print axioms Verif.Props.C13_put360
#print axioms Verif.Props.C13_arctan2d
#print axioms Verif.Props.C13_mjd2lst
#print axioms Verif.Props.C13_average
#print axioms Verif.Props.C14_inverse
#print axioms Verif.Props.C14_inverse_coordinates
#print axioms Verif.Props.C14_range
#print axioms Verif.Props.C14_rotation
#print axioms Verif.Props.C14_sense
#print axioms Verif.Props.C15_composes
#print axioms Verif.Props.C15_inverse
#print axioms Verif.Props.C15_rotation
#print axioms Verif.Props.C15_rate
#print axioms Verif.Props.C15_epoch
#print axioms Verif.Props.C16_inverse
#print axioms Verif.Props.C16_inverse_coordinates
#print axioms Verif.Props.C16_geometry
#print axioms Verif.Props.C16_altitude_range
#print axioms Verif.Props.C17_pointing_origin
#print axioms Verif.Props.C17_projection
#print axioms Verif.Props.C17_inverse
#print axioms Verif.Props.C17_inverse_disc
#print axioms Verif.Props.C18_rodrigues
#print axioms Verif.Props.C18_axis_to_axis
#print axioms Verif.Props.C18_obtuse_fails
#print axioms Verif.Props.C18_polar_misalignment
#print axioms Verif.Props.C18_hardcoded_rotation
#print axioms Verif.Props.C18_hardcoded_inverse
#print axioms Verif.Props.C18_mount_pole
#print axioms Verif.Props.C19_pointing_origin
#print axioms Verif.Props.C19_hexrot
#print axioms Verif.Props.C19_hexrot_undone
#print axioms Verif.Props.C19_disc
#print axioms Verif.Props.C19_round_trip
#print axioms Verif.Props.C20_raises
#print axioms Verif.Props.C20_order
#print axioms Verif.Props.C20_order_fails_at_horizon
#print axioms Verif.Props.C20_undo
#print axioms Verif.Props.C21_inverse
#print axioms Verif.Props.C21_apply
#print axioms Verif.Props.C21_field_correction
#print axioms Verif.Props.C21_tancorr_offset_applied_twice
#print axioms Verif.Props.C22_new
#print axioms Verif.Props.C22_exact
#print axioms Verif.Props.C22_optimal
#print axioms Verif.Props.C22_no_leak
#print axioms Verif.Props.C22_no_leak_exact
#print axioms Verif.Props.C22_stale_rotation
#print axioms Verif.Props.C22_stale_rotation_witness
#print axioms Verif.Props.C22_solid_exact
#print axioms Verif.Props.C22_solid_not_optimal
#print axioms Verif.Props.C23_simplecorr_unreadable
#print axioms Verif.Props.C23_tancorr_unreadable
#print axioms Verif.Props.C23_simplecorr_fields
#print axioms Verif.Props.C23_tancorr_fields
#print axioms Verif.Props.C23_fieldmodel
#print axioms Verif.Props.C23_fieldmodel_same_iff
#print axioms Verif.Props.C23_fvc2fp
#print axioms Verif.Props.C23_fvc2fp_unfitted
#print axioms Verif.Props.C23_fvc2fp_versions
#print axioms Verif.Props.C23_raytrace
#print axioms Verif.Props.C23_raytrace_malformed
#print axioms Verif.Props.C23_fvc2fp_attributes
#print axioms Verif.Props.C24_distortion
#print axioms Verif.Props.C24_reduce_expand
#print axioms Verif.Props.C24_normalisation
#print axioms Verif.Props.C24_residual
#print axioms Verif.Props.C24_contraction
#print axioms Verif.Props.C24_exact_linear
#print axioms Verif.Props.C24_empty
#print axioms Verif.Props.C24_forward
#print axioms Verif.Props.C25_curl_free
#print axioms Verif.Props.C25_divergence_free
#print axioms Verif.Props.C25_unknown_id
#print axioms Verif.Props.C25_sum
#print axioms Verif.Props.C25_linear
#print axioms Verif.Props.C25_zero
#print axioms Verif.Props.C25_distortion_curl_free
#print axioms Verif.Props.C26_noll_error
#print axioms Verif.Props.C26_noll_valid
#print axioms Verif.Props.C26_noll_bijective
#print axioms Verif.Props.C26_wyant_bijective
#print axioms Verif.Props.C27_mean
#print axioms Verif.Props.C27_mean_turns
#print axioms Verif.Props.C27_mean_advance
#print axioms Verif.Props.C27_delta
#print axioms Verif.Props.C27_equivariance
#print axioms Verif.Props.C27_equivariance_inverse
#print axioms Verif.Props.C27_turns
#print axioms Verif.Props.C27_inverse
#print axioms Verif.Props.C28_names
#print axioms Verif.Props.C28_negative
#print axioms Verif.Props.C28_mask
#print axioms Verif.Props.C28_mask_undefined
#print axioms Verif.Props.C28_mask_number
#print axioms Verif.Props.C28_bitnum
#print axioms Verif.Props.C28_roundtrip
#print axioms Verif.Props.C28_zero
#print axioms Verif.Props.C28_all_names
#print axioms Verif.Props.MoveFlags.C28_posflags
#print axioms Verif.Props.C29_accepts
#print axioms Verif.Props.C29_rejects
#print axioms Verif.Props.C29_blank
#print axioms Verif.Props.C29_blanks
#print axioms Verif.Props.C30_match_same
#print axioms Verif.Props.C30_keep_duplicates
#print axioms Verif.Props.C30_empty_second
#print axioms Verif.Props.C31_consistent
#print axioms Verif.Props.C31_error
#print axioms Verif.Props.C31_exact
#print axioms Verif.Props.C32_key_join
#print axioms Verif.Props.C33_assignment
#print axioms Verif.Props.C33_alternatives
#print axioms Verif.Props.C33_duplicate_ids
#print axioms Verif.Props.C33_nothing_in_range
#print axioms Verif.Props.C33_nothing_in_range_error
#print axioms Verif.Props.C33_out_of_reach
#print axioms Verif.Props.C34_first_call
#print axioms Verif.Props.C34_console_once
#print axioms Verif.Props.C34_invalid
#print axioms Verif.Props.C34_path_ignored
#print axioms Verif.Props.C35_labels
#print axioms Verif.Props.C35_history
#print axioms Verif.Props.C35_exact
#print axioms Verif.Props.C35_stale
#print axioms Verif.Props.C35_history_matters
#print axioms Verif.Props.C36_pairing
#print axioms Verif.Props.C36_pairs
#print axioms Verif.Props.C36_last_digit
#print axioms Verif.Props.C36_collision
#print axioms Verif.Props.C36_update
#print axioms Verif.Props.C36_row_order
#print axioms Verif.Props.C36_fit
#print axioms Verif.Props.FvcOptimal.C36_optimal
#print axioms Verif.Props.FvcOptimal.C36_exact
#print axioms Verif.Props.C36_goodness
#print axioms Verif.Props.C37_average
#print axioms Verif.Props.C37_two_tables
#print axioms Verif.Props.C37_copies
#print axioms Verif.Props.C38_fast_exact
#print axioms Verif.Props.C38_fit_exact
#print axioms Verif.Props.C38_fit_range
#print axioms Verif.Props.C38_three_points
#print axioms Verif.Props.C38_three_points_rejected
#print axioms Verif.Props.C38_robust
#print axioms Verif.Props.C38_robust_one_outlier
#print axioms Verif.Props.C38_robust_second_outlier
#print axioms Verif.Props.C38_robust_clean
#print axioms Verif.Props.C38_zero_scatter
#print axioms Verif.Props.C38_similarity
#print axioms Verif.Props.CirclesOutcome.C38_robust_outcome
#print axioms Verif.Props.C39_formula
#print axioms Verif.Props.C39_every_string
#print axioms Verif.Props.C39_none
#print axioms Verif.Props.C39_empty_clause
#print axioms Verif.Props.C40_row_index
#print axioms Verif.Props.C40_windows
#print axioms Verif.Props.C40_inside
#print axioms Verif.Props.C40_tail_unused
#print axioms Verif.Props.C40_no_datum
#print axioms Verif.Props.C40_single
#print axioms Verif.Props.C41_rows
#print axioms Verif.Props.C41_first_kept
#print axioms Verif.Props.C41_idempotent
#print axioms Verif.Props.C41_cruise_first_row
#print axioms Verif.Props.C42_one_file
#print axioms Verif.Props.C42_invalid_table
#print axioms Verif.Props.C42_too_few
#print axioms Verif.Props.C42_done
#print axioms Verif.Props.C42_read
#print axioms Verif.Props.C42_empty_table
#print axioms Verif.Props.C42_same_time
#print axioms Verif.Props.C42_new_sequence
#print axioms Verif.Props.C42_sequence_ten
#print axioms Verif.Props.C42_one_location
#print axioms Verif.Props.C42_enabled
#print axioms Verif.Props.C43_pass
#print axioms Verif.Props.C43_default_leak
#print axioms Verif.Props.C43_windows_share
#print axioms Verif.Props.C43_known_leak
#print axioms Verif.Props.C44_commit
#print axioms Verif.Props.C44_checked
#print axioms Verif.Props.C44_never_writes
#print axioms Verif.Props.C45_unique
#print axioms Verif.Props.C45_answers
#print axioms Verif.Props.C45_wrong_row
#print axioms Verif.Props.C46_all_offered
#print axioms Verif.Props.C46_first_line
#print axioms Verif.Props.C46_unoffered_answer
#print axioms Verif.Props.C46_adjust_exit
#print axioms Verif.Props.C46_adjust_ends
#print axioms Verif.Props.C47_messages
#print axioms Verif.Props.C47_written_despite_mismatch
#print axioms Verif.Props.C47_filled
#print axioms Verif.Props.C47_location
#print axioms Verif.Props.C47_missing_column
#print axioms Verif.Props.C48_join
#print axioms Verif.Props.C48_latest
#print axioms Verif.Props.C48_too_early
#print axioms Verif.Props.C48_measured
#print axioms Verif.Props.C48_history
#print axioms Verif.Props.C48_history_fails
#print axioms Verif.Props.C48_posids
#print axioms Verif.Props.C48_movers
#print axioms Verif.Props.C49_groups
#print axioms Verif.Props.C49_zero
#print axioms Verif.Props.C49_html_drops_rest
#print axioms Verif.Props.C49_ok2move
#print axioms Verif.Props.C49_too_few
#print axioms Verif.Props.C50_disjoint
#print axioms Verif.Props.C50_independent
#print axioms Verif.Props.C50_maximal
#print axioms Verif.Props.C50_distance
#print axioms Verif.Props.C50_asymmetric
#print axioms Verif.Props.C51_jobs
#print axioms Verif.Props.C51_names
#print axioms Verif.Props.C51_history
#print axioms Verif.Props.C51_failure_not_retried
#print axioms Verif.Props.C52_fresh
#print axioms Verif.Props.C52_history
#print axioms Verif.Props.C52_collision
#print axioms Verif.Props.C52_gz
#print axioms Verif.Props.C52_other
#print axioms Verif.Props.C53_invalid
#print axioms Verif.Props.C53_code
#print axioms Verif.Props.C53_zero_without_output
#print axioms Verif.Props.C53_sequence_names
#print axioms Verif.Props.C53_last
#print axioms Verif.Props.C53_last_misses
#print axioms Verif.Props.C54_well_posed
#print axioms Verif.Props.C54_excludeself
#print axioms Verif.Props.C54_smooth
#print axioms Verif.Props.C54_predict_at
#print axioms Verif.Props.C54_gradwavefront
#print axioms Verif.Props.C54_own_offset_unused
#print axioms Verif.Props.C54_gradwavefront_uses_self
#print axioms Verif.Props.C54_rejected
#print axioms Verif.Props.C54_shift
#print axioms Verif.Props.C54_correct
#print axioms Verif.Props.C54_correct_nothing
#print axioms Verif.Props.C54_stationary_unclipped
#print axioms Verif.Props.C54_stationary_clipped
#print axioms Verif.Props.C54_stationary_nonfinite
#print axioms Verif.Props.C54_stationary_clip_value
#print axioms Verif.Props.C55_template_reuse
#print axioms Verif.Props.C55_parallel_equals_serial
#print axioms Verif.Props.C55_accepted
#print axioms Verif.Props.C55_best_angle
#print axioms Verif.Props.C55_one_scale_spoils
#print axioms Verif.Props.C55_rounding
#print axioms Verif.Props.C56_error
#print axioms Verif.Props.C56_value
#print axioms Verif.Props.C56_bounded
#print axioms Verif.Props.C56_periodic
#print axioms Verif.Props.C57_arguments
#print axioms Verif.Props.C57_adc_angles
#print axioms Verif.Props.C57_adc_difference
#print axioms Verif.Props.C57_fieldrot
#print axioms Verif.Props.C57_realised
#print axioms Verif.Props.C57_steps
#print axioms Verif.Props.C57_round_trip
#print axioms Verif.Props.C57_platemaker_order
#print axioms Verif.Props.C57_pointing_step
#print axioms Verif.Props.C57_pointing_neutral
#print axioms Verif.Props.C57_flat
#print axioms Verif.Props.C58_small_image
#print axioms Verif.Props.C58_no_close_pairs
#print axioms Verif.Props.C58_pass
#print axioms Verif.Props.C58_brightest_kept
#print axioms Verif.Props.C58_only_removes
#print axioms Verif.Props.C58_coincident
#print axioms Verif.Props.C58_hundred
#print axioms Verif.Props.C58_peaks
#print axioms Verif.Props.C58_detectspots
#print axioms Verif.Props.C58_position
#print axioms Verif.Props.C59_text
#print axioms Verif.Props.C59_tuple
#print axioms Verif.Props.C59_errors
#print axioms Verif.Props.C59_only
#print axioms Verif.Props.C60_bijection
#print axioms Verif.Props.C60_layout
#print axioms Verif.Props.C60_unknown
#print axioms Verif.Props.C61_aberration
#print axioms Verif.Props.C61_size
#print axioms Verif.Props.C62_solvable
#print axioms Verif.Props.C62_exact
#print axioms Verif.Props.C62_optimal
#print axioms Verif.Props.C62_unknown_id
#print axioms Verif.Props.Spotmatch.C63_measured
#print axioms Verif.Props.Spotmatch.C63_targets
#print axioms Verif.Props.Spotmatch.C63_fiducial_config
#print axioms Verif.Props.Spotmatch.C63_offsets_zero
#print axioms Verif.Props.Spotmatch.C63_pixel_scale
#print axioms Verif.Props.Spotmatch.C63_reach
#print axioms Verif.Props.Spotmatch.C63_default_transform
#print axioms Verif.Props.Spotmatch.C63_failure
#print axioms Verif.Props.Spotmatch.C63_result
#print axioms Verif.Props.Spotmatch.C63_other_lines
#print axioms Verif.Props.Spotmatch.C63_stale
#print axioms Verif.Props.Spotmatch.C63_unknown_location
#print axioms Verif.Props.Spotmatch.C63_truncated
#print axioms Verif.Props.Gfa2fp.C64_exact
#print axioms Verif.Props.Gfa2fp.C64_least_squares
#print axioms Verif.Props.Gfa2fp.C64_missing
#print axioms Verif.Props.Gfa2fp.C64_incomplete
#print axioms Verif.Props.Gfa2fp.C64_cached
#print axioms Verif.Props.Gfa2fp.C64_all_petals
#print axioms Verif.Props.MoveFlags.C65_flag
#print axioms Verif.Props.MoveFlags.C65_rejected
#print axioms Verif.Props.MoveFlags.C65_stuck
#print axioms Verif.Props.MoveFlags.C65_moving
#print axioms Verif.Props.MoveFlags.C65_phi_never
#print axioms Verif.Props.Dm2pm.C66_fresh
#print axioms Verif.Props.Dm2pm.C66_roundtrip
#print axioms Verif.Props.Dm2pm.C66_refused
#print axioms Verif.Props.Dm2pm.C66_least_squares
#print axioms Verif.Props.Dm2pm.C66_exact
#print axioms Verif.Props.Dm2pm.C66_affine
#print axioms Verif.Props.Dm2pm.C66_cross
#print axioms Verif.Props.Dm2pm.C66_fails_iff
#print axioms Verif.Props.Dm2pm.C66_half_updated
#print axioms Verif.Props.FieldFit.C67_fails_iff
#print axioms Verif.Props.FieldFit.C67_least_squares
#print axioms Verif.Props.FieldFit.C67_exact
#print axioms Verif.Props.FieldFit.C67_nan
#print axioms Verif.Props.FieldFit.C67_identity_nan
#print axioms Verif.Props.FieldModel.C68_proper_motion
#print axioms Verif.Props.FieldModel.C68_no_motion
#print axioms Verif.Props.FieldModel.C68_refused
#print axioms Verif.Props.FieldModel.C68_mjd
#print axioms Verif.Props.FieldModel.C68_wrap
#print axioms Verif.Props.FieldModel.C69_inputs
#print axioms Verif.Props.FieldModel.C69_stale_lst
#print axioms Verif.Props.FieldModel.C69_exact
#print axioms Verif.Props.FieldModel.C69_no_rotation_nan
#print axioms Verif.Props.FieldPointing.C69_pointing
#print axioms Verif.Props.FieldPointing.C69_fixed
#print axioms Verif.Props.FieldModel.C70_value
#print axioms Verif.Props.FieldModel.C70_not_the_angle
#print axioms Verif.Props.FieldModel.C70_bounded
#print axioms Verif.Props.FitLoop.C71_outliers
#print axioms Verif.Props.FitLoop.C71_all_used
#print axioms Verif.Props.FitLoop.C71_rms
#print axioms Verif.Props.FitLoop.C71_too_few
#print axioms Verif.Props.FitLoop.C71_static_exact
#print axioms Verif.Props.FitLoop.C71_dynamic_exact
#print axioms Verif.Props.FitLoop.C71_degenerate
#print axioms Verif.Props.FitLoop.C71_rehomed
#print axioms Verif.Props.FitLoop.C71_twenty
#print axioms Verif.Props.FitLoop.C71_too_few_witness
#print axioms Verif.Props.FitLoop.C71_defaults
#print axioms Verif.Props.C71_drift_names
#print axioms Verif.Props.TurbPoly.C72_outside
#print axioms Verif.Props.TurbPoly.C72_prediction
#print axioms Verif.Props.TurbPoly.C72_exact
#print axioms Verif.Props.TurbPoly.C72_translation
#print axioms Verif.Props.TurbPoly.C72_self
#print axioms Verif.Props.TurbPoly.C72_isolated
#print axioms Verif.Props.TurbFiles.C73_loss_independent
#print axioms Verif.Props.TurbFiles.C73_loss_gradwavefront
#print axioms Verif.Props.TurbFiles.C73_loss_docstring
#print axioms Verif.Props.TurbFiles.C73_make_data
#print axioms Verif.Props.TurbFiles.C73_files
#print axioms Verif.Props.TurbFiles.C73_files_errors
#print axioms Verif.Props.TurbFiles.C73_central
#print axioms Verif.Props.Echo22.C74_round_trip_fp
#print axioms Verif.Props.Echo22.C74_round_trip_tan
#print axioms Verif.Props.Echo22.C74_rotation
#print axioms Verif.Props.Echo22.C74_origin
#print axioms Verif.Props.Echo22.C74_nan
#print axioms Verif.Props.Echo22.C74_scale
#print axioms Verif.Props.Echo22.C74_table
#print axioms Verif.Props.Echo22.C74_history
#print axioms Verif.Props.MovingDetect.C75_moved
#print axioms Verif.Props.MovingDetect.C75_unmoved
#print axioms Verif.Props.MovingDetect.C75_rows
#print axioms Verif.Props.MovingDetect.C75_exact
#print axioms Verif.Props.MovingDetect.C75_neighbours
#print axioms Verif.Props.MovingDetect.C75_no_limit
#print axioms Verif.Props.Int2ptl.C76_int2ptl
#print axioms Verif.Props.Int2ptl.C76_there_and_back
#print axioms Verif.Props.Int2ptl.C76_back_and_there
#print axioms Verif.Props.PosCoords.C77_rows
#print axioms Verif.Props.PosCoords.C77_own_time
#print axioms Verif.Props.PosCoords.C77_success
#print axioms Verif.Props.PosCoords.C77_later_calibration
#print axioms Verif.Props.PosCoords.C77_early_move_of_another
#print axioms Verif.Props.PosCoords.C77_nothing
#print axioms Verif.Props.C77_no_moves
#print axioms Verif.Props.FitCircles.C78_rows
#print axioms Verif.Props.FitCircles.C78_crash
#print axioms Verif.Props.FitCircles.C78_circle
#print axioms Verif.Props.FitCircles.C78_fiducial
#print axioms Verif.Props.FitCircles.C78_axis
#print axioms Verif.Props.FitCircles.C78_short_arc
#print axioms Verif.Props.FitCircles.C78_two_measurements
#print axioms Verif.Props.FpMetrology.C79_base
#print axioms Verif.Props.FpMetrology.C79_start
#print axioms Verif.Props.FpMetrology.C79_replace
#print axioms Verif.Props.FpMetrology.C79_no_replacement
#print axioms Verif.Props.FpMetrology.C79_unpatched
#print axioms Verif.Props.FpMetrology.C79_unique
#print axioms Verif.Props.FpMetrology.C79_gfa
#print axioms Verif.Props.FpMetrology.C79_gfa_z
#print axioms Verif.Props.FpMetrology.C79_cheat
#print axioms Verif.Props.FpMetrology.C79_ids
#print axioms Verif.Props.FpMetrology.C79_file
#print axioms Verif.Props.C79_unknown_location
#print axioms Verif.Props.GfaPatch.C80_fixed_point
#print axioms Verif.Props.GfaPatch.C80_rows
#print axioms Verif.Props.GfaPatch.C80_success
#print axioms Verif.Props.GfaPatch.C80_perpendicular
#print axioms Verif.Props.GfaPatch.C80_round_trip
#print axioms Verif.Props.C80_unknown_petal
#print axioms Verif.Props.MovesFvc.C81_images
#print axioms Verif.Props.MovesFvc.C81_tables
#print axioms Verif.Props.MovesFvc.C81_same_name
#print axioms Verif.Props.MovesFvc.C81_measurements
#print axioms Verif.Props.MovesFvc.C81_rows
#print axioms Verif.Props.MovesFvc.C81_success
#print axioms Verif.Props.MovesFvc.C81_content
#print axioms Verif.Props.MovesFvc.C81_overwritten
#print axioms Verif.Props.MovesFvc.C81_minus
#print axioms Verif.Props.MovesFvc.C81_colon
#print axioms Verif.Props.MovesFvc.C81_null
#print axioms Verif.Props.C81_no_table
#print axioms Verif.Props.MovesDates.C82_nearest
#print axioms Verif.Props.MovesDates.C82_rows
#print axioms Verif.Props.MovesDates.C82_success
#print axioms Verif.Props.MovesDates.C82_second_petal
#print axioms Verif.Props.MovesDates.C82_stops
#print axioms Verif.Props.C82_petals_agree
#print axioms Verif.Props.C82_no_calibration
#print axioms Verif.Props.C83_read
#print axioms Verif.Props.C83_order
#print axioms Verif.Props.C83_files
#print axioms Verif.Props.C83_scales
#print axioms Verif.Props.C83_last_day
#print axioms Verif.Props.C83_matched_center
#print axioms Verif.Props.C83_zero
#print axioms Verif.Props.C83_flags_agree
#print axioms Verif.Props.C84_tokens
#print axioms Verif.Props.C84_rows
#print axioms Verif.Props.C84_counter
#print axioms Verif.Props.C84_submove
#print axioms Verif.Props.C84_pieces
#print axioms Verif.Props.C84_correction
#print axioms Verif.Props.C84_success
#print axioms Verif.Props.C84_parents
#print axioms Verif.Props.C84_kept
#print axioms Verif.Props.C84_first_row
#print axioms Verif.Props.C84_orphan_left
#print axioms Verif.Props.C84_no_number
#print axioms Verif.Props.C84_token_order
#print axioms Verif.Props.C84_not_a_number
#print axioms Verif.Props.C84_empty
#print axioms Verif.Props.C84_components
#print axioms Verif.Props.C85_tags
#print axioms Verif.Props.C85_tagged
#print axioms Verif.Props.C85_avoidances
#print axioms Verif.Props.C85_accepted
#print axioms Verif.Props.C85_sequence
#print axioms Verif.Props.C85_bare_sequence
#print axioms Verif.Props.C85_cut_name
#print axioms Verif.Props.C85_bare_avoidance
#print axioms Verif.Props.C86_ceiling
#print axioms Verif.Props.C86_summary
#print axioms Verif.Props.C86_merged
#print axioms Verif.Props.C86_positioner
#print axioms Verif.Props.C86_stats
#print axioms Verif.Props.C86_median
#print axioms Verif.Props.C86_metadata
#print axioms Verif.Props.C86_dropped
#print axioms Verif.Props.C86_one_level
#print axioms Verif.Props.C86_meta_rejected
#print axioms Verif.Props.C86_empty
#print axioms Verif.Props.C87_errors
#print axioms Verif.Props.C87_radii
#print axioms Verif.Props.C87_images
#print axioms Verif.Props.C87_images_within
#print axioms Verif.Props.C87_images_across
#print axioms Verif.Props.C87_dims
#print axioms Verif.Props.C87_submove
#print axioms Verif.Props.C87_submoves_lost
#print axioms Verif.Props.C87_condensed
#print axioms Verif.Props.C87_short
#print axioms Verif.Props.C87_same_name
#print axioms Verif.Props.C87_top
#print axioms Verif.Props.C88_refit
#print axioms Verif.Props.C88_exact
#print axioms Verif.Props.C88_runs
#print axioms Verif.Props.C88_too_few
#print axioms Verif.Props.C88_rows
#print axioms Verif.Props.C88_theta
#print axioms Verif.Props.C88_other
#print axioms Verif.Props.C88_run
#print axioms Verif.Props.C88_unchanged
#print axioms Verif.Props.C88_fields
#print axioms Verif.Props.C88_unmatched
#print axioms Verif.Props.C88_shifted
#print axioms Verif.Props.RayConic.C89_roots
#print axioms Verif.Props.RayConic.C89_no_linear
#print axioms Verif.Props.RayConic.C89_hit
#print axioms Verif.Props.RayConic.C89_lost
#print axioms Verif.Props.RayConic.C89_unmoved
#print axioms Verif.Props.RayConic.C89_back
#print axioms Verif.Props.RayConic.C89_plane
#print axioms Verif.Props.RayConic.C89_from_centre
#print axioms Verif.Props.RayConic.C89_phantom
#print axioms Verif.Props.RayConic.C89_grazing
#print axioms Verif.Props.RayConic.C89_coincident
#print axioms Verif.Props.RayRedirect.C90_normal_unit
#print axioms Verif.Props.RayRedirect.C90_sag
#print axioms Verif.Props.RayRedirect.C90_normal
#print axioms Verif.Props.RayRedirect.C90_flange
#print axioms Verif.Props.RayRedirect.C90_mirror
#print axioms Verif.Props.RayRedirect.C90_mirror_length
#print axioms Verif.Props.RayRedirect.C90_mirror_twice
#print axioms Verif.Props.RayRedirect.C90_snell
#print axioms Verif.Props.RayRedirect.C90_tir
#print axioms Verif.Props.RayRedirect.C90_reversible
#print axioms Verif.Props.RayRedirect.C90_same_index
#print axioms Verif.Props.RayRedirect.C90_grazing
#print axioms Verif.Props.RayRedirect.C90_switch
#print axioms Verif.Props.RayRedirect.C90_last
#print axioms Verif.Props.RayFrames.C91_angles
#print axioms Verif.Props.RayFrames.C91_rotation
#print axioms Verif.Props.RayFrames.C91_round_trip
#print axioms Verif.Props.RayFrames.C91_round_trip
#print axioms Verif.Props.RayFrames.C91_rigid
#print axioms Verif.Props.RayFrames.C91_handed
#print axioms Verif.Props.RayFrames.C91_line
#print axioms Verif.Props.RayFrames.C91_every_rotation
#print axioms Verif.Props.RayAperture.C92_passes
#print axioms Verif.Props.RayAperture.C92_codes
#print axioms Verif.Props.RayAperture.C92_even
#print axioms Verif.Props.RayAperture.C92_double_roll
#print axioms Verif.Props.RayPath.C93_step
#print axioms Verif.Props.RayPath.C93_path
#print axioms Verif.Props.RayPath.C93_lost
#print axioms Verif.Props.RayPath.C93_unit
#print axioms Verif.Props.RayAdc.C94_roll
#print axioms Verif.Props.RayAdc.C94_rolls
#print axioms Verif.Props.RayAdc.C94_symmetric
#print axioms Verif.Props.RayAdc.C94_breaks
#print axioms Verif.Props.RayAdc.C94_adc
#print axioms Verif.Props.RayAdc.C94_modify
#print axioms Verif.Props.RayTurn.C94_turn
#print axioms Verif.Props.RayTurn.C94_turn_exists
#print axioms Verif.Props.RayNewton.C95_converges
#print axioms Verif.Props.RayNewton.C95_asphere
#print axioms Verif.Props.RayNewton.C95_stays
#print axioms Verif.Props.RayNewton.C95_phantom
#print axioms Verif.Props.RayNewton.C95_zero_slope
#print axioms Verif.Props.C95_edge
#print axioms Verif.Props.RayTables.C96_rays
#print axioms Verif.Props.RayTables.C96_ray_headers
#print axioms Verif.Props.RayTables.C96_media
#print axioms Verif.Props.RayTables.C96_refraction
#print axioms Verif.Props.RayTables.C96_numeric_glass
#print axioms Verif.Props.RayTables.C96_no_number
#print axioms Verif.Props.RayTables.C96_blank_index
#print axioms Verif.Props.RayTables.C96_unpack
#print axioms Verif.Props.RayTables.C96_first_number
#print axioms Verif.Props.RayTables.C96_headers
#print axioms Verif.Props.RayTables.C96_coefficient
#print axioms Verif.Props.RayTables.C96_bare_A
#print axioms Verif.Props.RayTables.C96_undefined_names
#print axioms Verif.Props.RayTables.C96_action
#print axioms Verif.Props.RayTables.C96_optics
#print axioms Verif.Props.RayTables.C96_optics_refused
#print axioms Verif.Props.RayTables.C96_comments
#print axioms Verif.Props.RayCorotate.C97_corotate
#print axioms Verif.Props.RayDesi.C97_table
#print axioms Verif.Props.RayDesi.C97_desi
#print axioms Verif.Props.RayRun.C97_wave
#print axioms Verif.Props.RayRun.C97_negative_wave
#print axioms Verif.Props.RayRun.C97_aim
#print axioms Verif.Props.RayRun.C97_nine
#print axioms Verif.Props.RayRun.C97_uneven
#print axioms Verif.Props.RayRun.C97_scatter
#print axioms Verif.Props.RayRun.C97_first_angles
#print axioms Verif.Props.RayRun.C97_field
#print axioms Verif.Props.RayRun.C97_grid
#print axioms Verif.Props.RayRun.C97_cover
#print axioms Verif.Props.RayRun.C97_rings
#print axioms Verif.Props.RayRun.C97_rows
#print axioms Verif.Props.RayRun.C97_settings
#print axioms Verif.Props.RayFit.C98_settings
#print axioms Verif.Props.RayFit.C98_key
#print axioms Verif.Props.RayFit.C98_collision
#print axioms Verif.Props.RayFit.C98_range
#print axioms Verif.Props.RayFit.C98_unusable
#print axioms Verif.Props.RayFit.C98_solvable
#print axioms Verif.Props.RayFit.C98_eight
#print axioms Verif.Props.RayFit.C98_setting
#print axioms Verif.Props.RayFit.C98_best
#print axioms Verif.Props.RayFit.C98_exact
#print axioms Verif.Props.RayFit.C98_opposite
#print axioms Verif.Props.RayFit.C98_total
#print axioms Verif.Props.RayFit.C98_run
#print axioms Verif.Props.C98_columns
#print axioms Verif.Props.C98_empty
#print axioms Verif.Props.C99_bins
#print axioms Verif.Props.C99_default
#print axioms Verif.Props.C99_errors
#print axioms Verif.Props.C99_lengths
#print axioms Verif.Props.C99_total
#print axioms Verif.Props.C99_common_shift
#print axioms Verif.Props.C99_perm
#print axioms Verif.Props.C99_first
#print axioms Verif.Props.C100_table
#print axioms Verif.Props.C100_dictionary
#print axioms Verif.Props.C100_exit
#print axioms Verif.Props.C100_propagation
#print axioms Verif.Props.C100_scaled
#print axioms Verif.Props.C101_psf
#print axioms Verif.Props.C101_derivative
#print axioms Verif.Props.C101_total
#print axioms Verif.Props.C101_fails
#print axioms Verif.Props.C101_within_a_pixel
#print axioms Verif.Props.C101_transpose
#print axioms Verif.Props.C101_mirror
#print axioms Verif.Props.C101_scale
#print axioms Verif.Props.C101_symmetric
#print axioms Verif.Props.C101_exact
#print axioms Verif.Props.C101_errors
#print axioms Verif.Props.C101_barycenter
#print axioms Verif.Props.C101_convolve_bounds
#print axioms Verif.Props.C101_convolve_sum
#print axioms Verif.Props.C101_convolve_point
#print axioms Verif.Props.Groupings.C102_match2d
#print axioms Verif.Props.Groupings.C102_possible
#print axioms Verif.Props.Groupings.C102_elbow
#print axioms Verif.Props.Groupings.C102_elbow_side
#print axioms Verif.Props.Groupings.C102_arms
#print axioms Verif.Props.Groupings.C102_lines
#print axioms Verif.Props.Groupings.C102_printed
#print axioms Verif.Props.Groupings.C102_uncalibrated
#print axioms Verif.Props.Groupings.C102_petal
#print axioms Verif.Props.Groupings.C102_petal_drops
#print axioms Verif.Props.FvcColumns.C103_expected
#print axioms Verif.Props.FvcColumns.C103_default
#print axioms Verif.Props.FvcColumns.C103_match
#print axioms Verif.Props.FvcColumns.C103_match_none
#print axioms Verif.Props.FvcColumns.C103_join
#print axioms Verif.Props.FvcColumns.C103_turbulence
#print axioms Verif.Props.FvcColumns.C103_finish
#print axioms Verif.Props.FvcColumns.C103_spotmatch_overwrites
#print axioms Verif.Props.FvcColumns.C103_unexpected
#print axioms Verif.Props.FvcColumns.C103_radec
#print axioms Verif.Props.FvcColumns.C103_normal
#print axioms Verif.Props.FvcColumns.C103_centres
#print axioms Verif.Props.CircleStart.C104_jacobian
#print axioms Verif.Props.CircleStart.C104_residuals
#print axioms Verif.Props.CircleStart.C104_gradient
#print axioms Verif.Props.CircleStart.C104_start_total
#print axioms Verif.Props.CircleStart.C104_start_majority
#print axioms Verif.Props.CircleStart.C104_start_exact
#print axioms Verif.Props.CircleStart.C104_start_stuck
#print axioms Verif.Props.CircleStart.C104_start_game_over
#print axioms Verif.Props.CircleStart.C104_start_used
#print axioms Verif.Props.PredictRot.C105_options
#print axioms Verif.Props.PredictRot.C105_missing
#print axioms Verif.Props.PredictRot.C105_header
#print axioms Verif.Props.PredictRot.C105_header_keys
#print axioms Verif.Props.PredictRot.C105_hexpos
#print axioms Verif.Props.PredictRot.C105_bad_lst
#print axioms Verif.Props.PredictRot.C105_printed
#print axioms Verif.Props.PredictRot.C105_rate_hour_angle
#print axioms Verif.Props.PredictRot.C105_physical
#print axioms Verif.Props.PredictRot.C105_fit
#print axioms Verif.Props.PredictRot.C105_variables
#print axioms Verif.Props.PatchUpdate.C106_update
#print axioms Verif.Props.PatchUpdate.C106_order
#print axioms Verif.Props.PatchUpdate.C106_again
#print axioms Verif.Props.Distance.C107_distance
#print axioms Verif.Props.Distance.C107_listings
#print axioms Verif.Props.Distance.C107_counts
#print axioms Verif.Props.Distance.C107_moving
#print axioms Verif.Props.Distance.C107_centers
#print axioms Verif.Props.PosparamsJobs.C108_recognised
#print axioms Verif.Props.PosparamsJobs.C108_last_file
#print axioms Verif.Props.PosparamsJobs.C108_one_process
#print axioms Verif.Props.PosparamsJobs.C108_processes
#print axioms Verif.Props.PosparamsJobs.C108_pool
#print axioms Verif.Props.PosparamsJobs.C108_petal_ids
#print axioms Verif.Props.PosparamsJobs.C108_latest
#print axioms Verif.Props.PosparamsJobs.C108_repeated
#print axioms Verif.Props.PosparamsJobs.C108_petal_zero
#print axioms Verif.Props.PetalTest.C109_petal0
#print axioms Verif.Props.PetalTest.C109_petal0_stops
#print axioms Verif.Props.PetalTest.C109_five_digits
#print axioms Verif.Props.PetalTest.C109_identifier
#print axioms Verif.Props.PetalTest.C109_petal1
#print axioms Verif.Props.PetalTest.C109_petal1_stops
#print axioms Verif.Props.PetalTest.C109_one_mm
#print axioms Verif.Props.PetalTest.C109_fiducials
#print axioms Verif.Props.PetalTest.C109_exceptions
#print axioms Verif.Props.PetalTest.C109_no_etc
#print axioms Verif.Props.Triangles.C110_triangles
#print axioms Verif.Props.Triangles.C110_listing
#print axioms Verif.Props.Triangles.C110_shape
#print axioms Verif.Props.Triangles.C110_similar
#print axioms Verif.Props.Triangles.C110_mirror
#print axioms Verif.Props.Triangles.C110_isosceles
#print axioms Verif.Props.GuideFit.C111_written
#print axioms Verif.Props.GuideFit.C111_times
#print axioms Verif.Props.GuideFit.C111_nstars
#print axioms Verif.Props.GuideFit.C111_header_time
#print axioms Verif.Props.GuideFit.C111_no_pointing
#print axioms Verif.Props.GuideFit.C111_no_time
#print axioms Verif.Props.GuideFit.C111_directory
#print axioms Verif.Props.Knees.C112_no_number
#print axioms Verif.Props.Knees.C112_pixels
#print axioms Verif.Props.Knees.C112_left_over
#print axioms Verif.Props.Knees.C112_knee
#print axioms Verif.Props.Knees.C112_turned
#print axioms Verif.Props.Knees.C112_table
#print axioms Verif.Props.Knees.C112_succeeds
#print axioms Verif.Props.Knees.C112_minccf
#print axioms Verif.Props.Knees.C112_petal_angle
#print axioms Verif.Props.BinErrors.C113_status
#print axioms Verif.Props.BinErrors.C113_partition
#print axioms Verif.Props.BinErrors.C113_monotone
#print axioms Verif.Props.BinErrors.C113_latest
#print axioms Verif.Props.BinErrors.C113_result
#print axioms Verif.Props.BinErrors.C113_even
#print axioms Verif.Props.BinErrors.C113_edges
#print axioms Verif.Props.BinErrors.C113_errors
#print axioms Verif.Props.BinErrors.C113_others
#print axioms Verif.Props.BinErrors.C113_hues
#print axioms Verif.Props.BinErrors.C113_ticks
#print axioms Verif.Props.BinErrors.C113_no_ticks
#print axioms Verif.Props.PmCoords.C114_flagged
#print axioms Verif.Props.PmCoords.C114_sky_not_flagged
#print axioms Verif.Props.PmCoords.C114_broken
#print axioms Verif.Props.PmCoords.C114_joined
#print axioms Verif.Props.PmCoords.C114_key_error
#print axioms Verif.Props.PmCoords.C114_written
#print axioms Verif.Props.PmCoords.C114_close
#print axioms Verif.Props.PmCoords.C114_sky_written
#print axioms Verif.Props.PmCoords.C114_classes
#print axioms Verif.Props.PmCoords.C114_good
#print axioms Verif.Props.PmCoords.C114_drawn
#print axioms Verif.Props.PmCoords.C114_counts
#print axioms Verif.Props.PmCoords.C114_disabled
#print axioms Verif.Props.PmCoords.C114_rms
#print axioms Verif.Props.FvcResiduals.C115_exit
#print axioms Verif.Props.FvcResiduals.C115_lines
#print axioms Verif.Props.FvcResiduals.C115_large
#print axioms Verif.Props.FvcResiduals.C115_posid_missing
#print axioms Verif.Props.FvcResiduals.C115_wrong_spot
#print axioms Verif.Props.FvcResiduals.C115_fiducials
#print axioms Verif.Props.FvcResiduals.C115_matched
#print axioms Verif.Props.FvcResiduals.C115_matched_sum
#print axioms Verif.Props.FvcResiduals.C115_rms_lt
#print axioms Verif.Props.FvcResiduals.C115_all
#print axioms Verif.Props.FvcResiduals.C115_rms_le
#print axioms Verif.Props.FvcResiduals.C115_rms
#print axioms Verif.Props.DitherCompare.C116_exposure
#print axioms Verif.Props.DitherCompare.C116_chi2
#print axioms Verif.Props.DitherCompare.C116_joined
#print axioms Verif.Props.DitherCompare.C116_zero_ra
#print axioms Verif.Props.DitherCompare.C116_tangent
#print axioms Verif.Props.DitherCompare.C116_wrapped
#print axioms Verif.Props.DitherCompare.C116_line
#print axioms Verif.Props.DitherCompare.C116_two
#print axioms Verif.Props.DitherCompare.C116_exact
#print axioms Verif.Props.DitherCompare.C116_range
#print axioms Verif.Props.LegacyReq.C117_rows
#print axioms Verif.Props.LegacyReq.C117_last
#print axioms Verif.Props.LegacyReq.C117_command
#print axioms Verif.Props.LegacyReq.C117_other_command
#print axioms Verif.Props.LegacyReq.C117_ptl
#print axioms Verif.Props.LegacyReq.C117_obs
#print axioms Verif.Props.LegacyReq.C117_loc
#print axioms Verif.Props.LegacyReq.C117_tracked
#print axioms Verif.Props.LegacyReq.C117_external_angles
#print axioms Verif.Props.LegacyReq.C117_no_request
#print axioms Verif.Props.LegacyReq.C117_assertion
#print axioms Verif.Props.LegacyReq.C117_note
#print axioms Verif.Props.LegacyReq.C117_move_to_range
#print axioms Verif.Props.PlotPosmoves.C118_expected
#print axioms Verif.Props.PlotPosmoves.C118_fitted
#print axioms Verif.Props.PlotPosmoves.C118_same
#print axioms Verif.Props.PlotPosmoves.C118_measured
#print axioms Verif.Props.PlotPosmoves.C118_height_used
#print axioms Verif.Props.PlotPosmoves.C118_height_ignored
#print axioms Verif.Props.PlotPosmoves.C118_low_z
#print axioms Verif.Props.PlotPosmoves.C118_image
#print axioms Verif.Props.PlotPosmoves.C118_distinct
#print axioms Verif.Props.PlotPosmoves.C118_overwritten
#print axioms Verif.Props.PlotPosmoves.C118_run
#print axioms Verif.Props.PlotPosparams.C119_bins_set
#print axioms Verif.Props.PlotPosparams.C119_jobs
#print axioms Verif.Props.PlotPosparams.C119_counts
#print axioms Verif.Props.PlotPosparams.C119_when
#print axioms Verif.Props.PlotPosparams.C119_order
#print axioms Verif.Props.PlotPosparams.C119_skipped
#print axioms Verif.Props.PlotPosparams.C119_no_data
#print axioms Verif.Props.PlotPosparams.C119_unchecked
#print axioms Verif.Props.PlotPosparams.C119_repeated
#print axioms Verif.Props.DataDir.C120_one_alignment
#print axioms Verif.Props.DataDir.C120_round_trip
#print axioms Verif.Props.DataDir.C120_first_use
#print axioms Verif.Props.DataDir.C120_retry
#print axioms Verif.Props.DataDir.C120_metrology
#print axioms Verif.Props.DataDir.C120_stale
#print axioms Verif.Props.DataDir.C120_one_gfa
#print axioms Verif.Props.DataDir.C120_first_gfa
#print axioms Verif.Props.DataDir.C120_written
#print axioms Verif.Props.AlignExport.C121_run
#print axioms Verif.Props.AlignExport.C121_errors
#print axioms Verif.Props.AlignExport.C121_names
#print axioms Verif.Props.AlignExport.C121_used
#print axioms Verif.Props.AlignExport.C121_order
#print axioms Verif.Props.Zernike.C122_edge
#print axioms Verif.Props.Zernike.C122_radial
#print axioms Verif.Props.Zernike.C122_orthogonal
#print axioms Verif.Props.Zernike.C122_noll
#print axioms Verif.Props.Zernike.C122_power
#print axioms Verif.Props.Zernike.C122_fields
#print axioms Verif.Props.Zernike.C122_unique
#print axioms Verif.Props.Drawn.C123_canbus
#print axioms Verif.Props.Drawn.C123_buses
#print axioms Verif.Props.Drawn.C123_metrology
#print axioms Verif.Props.Drawn.C123_labels
#print axioms Verif.Props.Drawn.C123_highlighted
#print axioms Verif.Props.Drawn.C123_outlines
#print axioms Verif.Props.Drawn.C123_spots_ends
#print axioms Verif.Props.Drawn.C123_series
#print axioms Verif.Props.Drawn.C123_marked
#print axioms Verif.Props.Drawn.C123_positioner
#print axioms Verif.Props.Drawn.C123_once
#print axioms Verif.Props.PetalData.C124_error
#print axioms Verif.Props.PetalData.C124_exact
#print axioms Verif.Props.PetalData.C124_tilted
#print axioms Verif.Props.PetalData.C124_shipped
#print axioms Verif.Props.PetalData.C124_chain
#print axioms Verif.Props.PetalData.C124_nominal
#print axioms Verif.Props.PetalData.C124_apart
#print axioms Verif.Props.C125_aberration
#print axioms Verif.Props.C125_polar
#print axioms Verif.Props.C125_round_trip
#print axioms Verif.Props.C125_pole
#print axioms Verif.Props.C126_error
#print axioms Verif.Props.C126_distinct
#print axioms Verif.Props.C126_field
#print axioms Verif.Props.DetectEdge.C127_failures
#print axioms Verif.Props.DetectEdge.C127_edge
#print axioms Verif.Props.DetectImage.C127_robust
#print axioms Verif.Props.DetectImage.C127_flat
#print axioms Verif.Props.DetectImage.C127_noiseless
#print axioms Verif.Props.DetectImage.C127_background
#print axioms Verif.Props.DetectImage.C127_dark
#print axioms Verif.Props.DetectImage.C127_exposure
#print axioms Verif.Props.DetectMany.C127_spots
#print axioms Verif.Props.DetectMeasured.C127_measured
#print axioms Verif.Props.DetectMeasured.C127_spot
#print axioms Verif.Props.DbQuery.C128_query
#print axioms Verif.Props.DbQuery.C128_petals
#print axioms Verif.Props.DbQuery.C128_unknown_petal
#print axioms Verif.Props.DbQuery.C128_import
#print axioms Verif.Props.DbQuery.C128_columns
#print axioms Verif.Props.AngleErrors.C129_position
#print axioms Verif.Props.AngleErrors.C129_cos_phi
#print axioms Verif.Props.AngleErrors.C129_phi
#print axioms Verif.Props.AngleErrors.C129_theta
#print axioms Verif.Props.AngleErrors.C129_stretched
#print axioms Verif.Props.PetalErrors.C130_flat
#print axioms Verif.Props.PetalErrors.C130_int2ptl
#print axioms Verif.Props.PetalErrors.C130_ptl2int
#print axioms Verif.Props.FitNoise.C131_shared
#print axioms Verif.Props.FitNoise.C131_centre
#print axioms Verif.Props.FitNoise.C131_noise
#print axioms Verif.Props.FitNoise.C131_unique
#print axioms Verif.Props.FitNoise.C131_succeeds
#print axioms Verif.Props.FitNoise2.C132_shared
#print axioms Verif.Props.FitNoise2.C132_noise
#print axioms Verif.Props.FitNoise2.C132_unique
#print axioms Verif.Props.FitNoise2.C132_superposition
#print axioms Verif.Props.Shipped.C133_camera_back
#print axioms Verif.Props.Shipped.C133_camera
#print axioms Verif.Props.Shipped.C133_camera_scale
#print axioms Verif.Props.Shipped.C133_tables
#print axioms Verif.Props.Shipped.C133_sky
#print axioms Verif.Props.Shipped.C133_sky_back
#print axioms Verif.Props.Shipped.C133_sky_table
#print axioms Verif.Props.SkyScale.C133_sky_scale
#print axioms Verif.Props.SkyScale.C133_sky_error
#print axioms Verif.Props.ImageToFocal.C134_near
#print axioms Verif.Props.ImageToFocal.C134_apart
#print axioms Verif.Props.ImageToFocal.C134_error
