import Verif.Props.Base64
import Verif.Props.GeoUtil
import Verif.Props.Sort
import Verif.Props.Comm
import Verif.Props.PointDist
import Verif.Props.Rng
import Verif.Props.TpetraUtil
import Verif.Props.CmdParser
import Verif.Props.CmdGet
import Verif.Props.Config
import Verif.Props.Equatn
import Verif.Props.Buffer
import Verif.Props.BCQP
import Verif.Props.LCP
import Verif.Props.ConOp
import Verif.Props.Collector
import Verif.Props.Boundary
import Verif.Props.DCP
import Verif.Props.Near
import Verif.Props.BoundaryCol
import Verif.Props.Mobility
import Verif.Props.Output
import Verif.Props.Snapshot
import Verif.Props.Crash
import Verif.Props.Ids
import Verif.Props.Stats
import Verif.Props.Links
import Verif.Props.LinkBodies
import Verif.Props.Wrap
import Verif.Props.Mix
import Verif.Props.Init
import Verif.Props.Vtp
import Verif.Props.Radix
import Verif.Props.Morton
import Verif.Props.Box
import Verif.Props.Tree
import Verif.Props.Moment
import Verif.Props.Walk
import Verif.Props.Image
import Verif.Props.RootCell
import Verif.Props.Let
import Verif.Props.Force
import Verif.Props.Domain
import Verif.Props.Migrate
import Verif.Props.Place
import Verif.Props.Collide
import Verif.Props.MixTree
import Verif.Props.MT
import Verif.Props.MemPool
import Verif.Props.RunStep
import Verif.Props.NoOverlap
import Verif.Props.NoCross
import Verif.Props.Sim
import Verif.Props.Converge
import Verif.Props.Springs
import Verif.Props.Grow
import Verif.Props.Momentum
import Verif.Props.Motion
import Verif.Props.Work
import Verif.Props.Resume
import Verif.Props.CheckErr
import Verif.Props.Layout
import Verif.Props.Alike
import Verif.Props.RandomProblem
import Verif.Props.FloatStep
import Verif.Props.GaussLegendre
import Verif.Props.CircularQ
import Verif.Props.LogPool
import Verif.Props.VolFrac
import Verif.Props.Registry
import Verif.Props.Dump
import Verif.Props.Dilute
import Verif.Props.DiluteRun
import Verif.Props.DCPError
import Verif.Props.Rods
import Verif.Props.Layer
import Verif.Props.Folders
import Verif.Props.Level
import Verif.Props.Plane
import Verif.Props.Missed
import Verif.Props.Points
import Verif.Props.Rest
import Verif.Props.Obstacle
import Verif.Props.Limp
import Verif.Props.LimpRun
import Verif.Props.Displace
import Verif.Props.Rigid
import Verif.Props.Rename
import Verif.Props.RenameRun
import Verif.Props.RenameFalse
import Verif.Props.Units
import Verif.Props.UnitsBrown
import Verif.Props.UnitsTurn
import Verif.Props.UnitsRun
import Verif.Props.Headless
import Verif.Props.HeadlessTurn
import Verif.Props.HeadlessRun
import Verif.Props.RotatingLog
import Verif.Props.DupFilter
import Verif.Props.LCPTest
import Verif.Props.LoadLevels
import Verif.Props.StressTurn
import Verif.Props.CreateDir
import Verif.Props.DailyLog
import Verif.Props.HourlyLog
import Verif.Props.LogSinks
import Verif.Props.VtkText
/-!
The axioms every property theorem depends on, printed during the build.
-/
#print axioms Verif.C01_base64_roundtrip
#print axioms Verif.C01_base64_roundtrip_in_place
#print axioms Verif.C02_base64_rfc4648
#print axioms Verif.C03_stream_decode_false
#print axioms Verif.C03_end_mark_decodes_as_byte
#print axioms Verif.C03_stream_decode_partial
#print axioms Verif.C04_vtk_header_partial
#print axioms Verif.C04_header_truncates
#print axioms Verif.C05_wrap
#print axioms Verif.C05_wrap_fixed
#print axioms Verif.C05_wrap_diverges
#print axioms Verif.C05_wrap_rounding_false
#print axioms Verif.C05_wrap_rounding_partial
#print axioms Verif.C05_wrap_absorbed_diverges
#print axioms Verif.C06_nearest_image
#print axioms Verif.C07_sortDataWithTag
#print axioms Verif.C07_length_mismatch
#print axioms Verif.C08_exchange
#print axioms Verif.C08_conservation
#print axioms Verif.C08_inadmissible
#print axioms Verif.C09_distribute_partial
#print axioms Verif.C09_distribute_overflow
#print axioms Verif.C09_distribute_false
#print axioms Verif.C09_distribute_dimension_zero
#print axioms Verif.C09_collect
#print axioms Verif.C09_collectAll
#print axioms Verif.C09_roundtrip_partial
#print axioms Verif.C10_disjoint
#print axioms Verif.C10_stream
#print axioms Verif.C10_cover
#print axioms Verif.C10_bad_thread
#print axioms Verif.C52_global_indices
#print axioms Verif.C53_two_block_map
#print axioms Verif.C53_two_block_vector
#print axioms Verif.C53_not_contiguous
#print axioms Verif.C11_run_ok
#print axioms Verif.C11_get
#print axioms Verif.C11_run_complete
#print axioms Verif.C11_homeless_word
#print axioms Verif.C11_reorder
#print axioms Verif.C11_positional_after_flag
#print axioms Verif.C11_positional_false
#print axioms Verif.C12_fields
#print axioms Verif.C12_complete
#print axioms Verif.C12_missing
#print axioms Verif.C12_order
#print axioms Verif.C12_boundaries_partial
#print axioms Verif.C12_boundaries_known
#print axioms Verif.C12_no_boundaries
#print axioms Verif.C12_boundaries_false
#print axioms Verif.C13_unit
#print axioms Verif.C13_rotation
#print axioms Verif.C13_compose
#print axioms Verif.C13_small
#print axioms Verif.C13_stepEuler
#print axioms Verif.C14_orientation
#print axioms Verif.C14_circle
#print axioms Verif.C14_sphere
#print axioms Verif.C15_tangent
#print axioms Verif.C15_gram
#print axioms Verif.C15_product
#print axioms Verif.C15_derivative
#print axioms Verif.C15_cross
#print axioms Verif.C16_copySwap_false
#print axioms Verif.C16_copySwap_partial
#print axioms Verif.C16_copySwap_actual
#print axioms Verif.C17_fifo_partial
#print axioms Verif.C17_overflow
#print axioms Verif.C17_truncation
#print axioms Verif.C17_fifo_false
#print axioms Verif.C17_constructor_keeps
#print axioms Verif.C18_nearest
#print axioms Verif.C18_fixed
#print axioms Verif.C18_idempotent
#print axioms Verif.C18_nonexpansive
#print axioms Verif.C19_defined
#print axioms Verif.C19_zero_at_solution_partial
#print axioms Verif.C19_solution_of_zero_partial
#print axioms Verif.C19_descent_bound
#print axioms Verif.C19_minimises
#print axioms Verif.C19_near_minimum
#print axioms Verif.C19_equal_bounds_false
#print axioms Verif.C19_inside_tolerance_false
#print axioms Verif.C19_rounding_exit
#print axioms Verif.C20_bbpgd_partial
#print axioms Verif.C20_feasible
#print axioms Verif.C20_exhausted
#print axioms Verif.C20_returns
#print axioms Verif.C20_false
#print axioms Verif.C20_guess_false
#print axioms Verif.C21_apgd_partial
#print axioms Verif.C21_returns
#print axioms Verif.C21_false
#print axioms Verif.C21_ones_undefined
#print axioms Verif.C22_residual
#print axioms Verif.C22_bbpgd_partial
#print axioms Verif.C22_bbpgd_returns
#print axioms Verif.C22_bbpgd_false
#print axioms Verif.C22_apgd_partial
#print axioms Verif.C22_apgd_returns
#print axioms Verif.C22_newton_partial
#print axioms Verif.C22_newton_returns
#print axioms Verif.C22_newton_false
#print axioms Verif.C22_newton_stall_false
#print axioms Verif.C23_apply
#print axioms Verif.C23_reject
#print axioms Verif.C23_spd
#print axioms Verif.C24_constraintOperator
#print axioms Verif.C24_cpMatOp_false
#print axioms Verif.C24_cpMatOp_partial
#print axioms Verif.C24_mmNewton_false
#print axioms Verif.C24_mmNewton_partial
#print axioms Verif.C24_kinv_false
#print axioms Verif.C25_partial
#print axioms Verif.C25_resolveConstraints
#print axioms Verif.C25_false
#print axioms Verif.C26_split_partial
#print axioms Verif.C26_sum
#print axioms Verif.C26_false
#print axioms Verif.C63_gradient
#print axioms Verif.C63_complementarity
#print axioms Verif.C27_build_defined
#print axioms Verif.C27_gap_rate
#print axioms Verif.C27_force
#print axioms Verif.C27_power_balance
#print axioms Verif.C27_stress_roundtrip
#print axioms Verif.C27_reverse
#print axioms Verif.C28_numbering
#print axioms Verif.C28_clear
#print axioms Verif.C29_stress_total
#print axioms Verif.C29_threads_irrelevant
#print axioms Verif.C30_once_partial
#print axioms Verif.C30_history_partial
#print axioms Verif.C30_not_repeatable
#print axioms Verif.C33_sphere_partial
#print axioms Verif.C33_center_false
#print axioms Verif.C34_wall
#print axioms Verif.C35_tube_partial
#print axioms Verif.C35_axis_false
#print axioms Verif.C36_sphere_accepts_partial
#print axioms Verif.C36_sphere_sound
#print axioms Verif.C36_wall_accepts_partial
#print axioms Verif.C36_wall_sound
#print axioms Verif.C36_tube_accepts_partial
#print axioms Verif.C36_tube_sound
#print axioms Verif.C36_on_boundary_false
#print axioms Verif.C31_point_segment
#print axioms Verif.C32_points_partial
#print axioms Verif.C32_minimum_partial
#print axioms Verif.C32_parallel_partial
#print axioms Verif.C32_ideal_partial
#print axioms Verif.C32_error_partial
#print axioms Verif.C32_exact_partial
#print axioms Verif.C32_rods_partial
#print axioms Verif.C32_false
#print axioms Verif.C37_contact_partial
#print axioms Verif.C37_touching_false
#print axioms Verif.C38_stress
#print axioms Verif.C38_recorded
#print axioms Verif.C38_spheres
#print axioms Verif.C38_turned
#print axioms Verif.C39_once_partial
#print axioms Verif.C39_false
#print axioms Verif.C40_search_partial
#print axioms Verif.C40_ratio_partial
#print axioms Verif.C40_false
#print axioms Verif.C41_ends_partial
#print axioms Verif.C41_convex_partial
#print axioms Verif.C41_rods
#print axioms Verif.C41_short_false
#print axioms Verif.C41_obstacle_false
#print axioms Verif.C41_on_boundary_false
#print axioms Verif.C41_tube_axis_false
#print axioms Verif.C41_centre_false
#print axioms Verif.C42_drag
#print axioms Verif.C42_inverse
#print axioms Verif.C42_spd
#print axioms Verif.C42_immovable
#print axioms Verif.C43_velocity_partial
#print axioms Verif.C43_monolayer_false
#print axioms Verif.C64_covariance
#print axioms Verif.C65_plane_partial
#print axioms Verif.C65_upright_false
#print axioms Verif.C44_folders
#print axioms Verif.C45_cadence
#print axioms Verif.C45_exact
#print axioms Verif.C45_resumed
#print axioms Verif.C45_zero
#print axioms Verif.C45_decimal_false
#print axioms Verif.C46_restart_partial
#print axioms Verif.C46_rounded_partial
#print axioms Verif.C46_history
#print axioms Verif.C46_seed_partial
#print axioms Verif.C46_rounded_false
#print axioms Verif.C46_folder_false
#print axioms Verif.C46_seed_false
#print axioms Verif.C50_roundtrip_partial
#print axioms Verif.C50_rounded_partial
#print axioms Verif.C50_short_false
#print axioms Verif.C50_digits_false
#print axioms Verif.C47_named_partial
#print axioms Verif.C47_single_partial
#print axioms Verif.C47_next_partial
#print axioms Verif.C47_ranks_false
#print axioms Verif.C47_truncated_false
#print axioms Verif.C48_addition
#print axioms Verif.C48_history
#print axioms Verif.C49_links_partial
#print axioms Verif.C49_reread_false
#print axioms Verif.C49_duplicate_false
#print axioms Verif.C51_box_partial
#print axioms Verif.C51_negative_false
#print axioms Verif.C54_capacity
#print axioms Verif.C55_order
#print axioms Verif.C55_empty
#print axioms Verif.C56_axes
#print axioms Verif.C61_stress
#print axioms Verif.C61_distribution
#print axioms Verif.C61_zero
#print axioms Verif.C58_latest_partial
#print axioms Verif.C58_stale_false
#print axioms Verif.C60_links_partial
#print axioms Verif.C60_bodies_partial
#print axioms Verif.C60_touching_false
#print axioms Verif.C60_outside_false
#print axioms Verif.C60_missing_false
#print axioms Verif.C57_copies
#print axioms Verif.C57_order
#print axioms Verif.C57_mix
#print axioms Verif.C66_wrap
#print axioms Verif.C66_fixed
#print axioms Verif.C66_links
#print axioms Verif.C66_rounding
#print axioms Verif.C66_rounding_false
#print axioms Verif.C66_far_false
#print axioms Verif.C59_init_partial
#print axioms Verif.C59_length_false
#print axioms Verif.C59_zero_false
#print axioms Verif.C59_diverges
#print axioms Verif.C62_bodies_partial
#print axioms Verif.C62_constraints_partial
#print axioms Verif.C62_pieces
#print axioms Verif.C62_overflow_false
#print axioms Verif.C67_radix_sort_correct
#print axioms Verif.C67_other_schedules_false
#print axioms Verif.C67_smaller_team_false
#print axioms Verif.C68_key_defined
#print axioms Verif.C68_prefix_iff_same_cell
#print axioms Verif.C68_cellID_is_octant
#print axioms Verif.C68_upper_face_false
#print axioms Verif.C69_point_tests
#print axioms Verif.C69_overlap_iff_common_point
#print axioms Verif.C69_merge_is_hull
#print axioms Verif.C69_merge_points
#print axioms Verif.C69_distance_to_point
#print axioms Verif.C69_distance_to_box
#print axioms Verif.C69_shift
#print axioms Verif.C69_distance_negative_box_false
#print axioms Verif.C70_partition_search
#print axioms Verif.C70_linkCell_builds_tree
#print axioms Verif.C70_levels_and_blocks
#print axioms Verif.C70_partition_search_single_false
#print axioms Verif.C70_leaf_limit_zero_false
#print axioms Verif.C71_cell_boxes
#print axioms Verif.C71_huge_coordinates_false
#print axioms Verif.C72_interaction_list
#print axioms Verif.C72_no_neighbour_missed
#print axioms Verif.C73_groups_partition
#print axioms Verif.C74_images_exact
#print axioms Verif.C74_open_box
#print axioms Verif.C74_outside_false
#print axioms Verif.C74_no_extent_diverges
#print axioms Verif.C75_image_id
#print axioms Verif.C75_outside_diverges
#print axioms Verif.C76_exchange
#print axioms Verif.C77_root_cell
#print axioms Verif.C77_point_false
#print axioms Verif.C78_calc_force_all
#print axioms Verif.C79_grid
#print axioms Verif.C80_tiling
#print axioms Verif.C80_balance
#print axioms Verif.C80_few_samples_false
#print axioms Verif.C81_samples
#print axioms Verif.C81_total
#print axioms Verif.C81_empty_false
#print axioms Verif.C82_exchange
#print axioms Verif.C82_nothing_lost
#print axioms Verif.C82_upper_face_false
#print axioms Verif.C83_placed
#print axioms Verif.C83_layer
#print axioms Verif.C83_progress
#print axioms Verif.C83_bodies
#print axioms Verif.C83_monolayer_false
#print axioms Verif.C84_pairs_partial
#print axioms Verif.C84_run_partial
#print axioms Verif.C84_layer_partial
#print axioms Verif.C91_rods_false
#print axioms Verif.C85_tree
#print axioms Verif.C85_mix
#print axioms Verif.C86_sequence
#print axioms Verif.C86_ranges
#print axioms Verif.C86_samples
#print axioms Verif.C87_calls_partial
#print axioms Verif.C87_memory_partial
#print axioms Verif.C87_empty_partial
#print axioms Verif.C87_calls_false_unallocated
#print axioms Verif.C87_calls_false_emergency
#print axioms Verif.C87_calls_false_regrow
#print axioms Verif.C87_empty_false
#print axioms Verif.C88_step_partial
#print axioms Verif.C88_defined
#print axioms Verif.C88_free
#print axioms Verif.C88_false_monolayer
#print axioms Verif.C89_no_overlap_partial
#print axioms Verif.C89_rods_partial
#print axioms Verif.C89_spheres
#print axioms Verif.C91_rods_false
#print axioms Verif.C90_ends_partial
#print axioms Verif.C90_bodies_partial
#print axioms Verif.C90_obstacle_false
#print axioms Verif.C91_bodies
#print axioms Verif.C91_no_overlap_partial
#print axioms Verif.C91_spheres
#print axioms Verif.C91_boundaries_partial
#print axioms Verif.C91_progress
#print axioms Verif.C91_layer
#print axioms Verif.C91_layer_no_overlap_partial
#print axioms Verif.C91_rods_false
#print axioms Verif.C90_obstacle_false
#print axioms Verif.C92_conditioned_partial
#print axioms Verif.C92_unbound_partial
#print axioms Verif.C92_separate_partial
#print axioms Verif.C92_persists_partial
#print axioms Verif.C92_cycle_false
#print axioms Verif.C92_wedge_false
#print axioms Verif.C93_links_partial
#print axioms Verif.C93_solved
#print axioms Verif.C93_touching
#print axioms Verif.C93_limp_false
#print axioms Verif.C94_ids
#print axioms Verif.C94_add
#print axioms Verif.C94_sound
#print axioms Verif.C95_balance
#print axioms Verif.C95_free
#print axioms Verif.C96_motion
#print axioms Verif.C96_immovable
#print axioms Verif.C96_dissipation
#print axioms Verif.C97_work
#print axioms Verif.C97_energy
#print axioms Verif.C97_decay
#print axioms Verif.C98_resume_partial
#print axioms Verif.C98_rounded_partial
#print axioms Verif.C98_life
#print axioms Verif.C99_exact
#print axioms Verif.C99_verdict_partial
#print axioms Verif.C99_accepts_false
#print axioms Verif.C99_rejects_false
#print axioms Verif.C100_start
#print axioms Verif.C100_constraints
#print axioms Verif.C100_motion
#print axioms Verif.C100_positions
#print axioms Verif.C101_defined
#print axioms Verif.C101_matrix_partial
#print axioms Verif.C101_symmetric
#print axioms Verif.C101_positive_partial
#print axioms Verif.C101_definite_partial
#print axioms Verif.C101_definite_false
#print axioms Verif.C101_matrix_false
#print axioms Verif.C101_bounds
#print axioms Verif.C101_quality
#print axioms Verif.C101_quality_false
#print axioms Verif.C102_unit
#print axioms Verif.C102_orientation
#print axioms Verif.C102_orientation_fast
#print axioms Verif.C102_position
#print axioms Verif.C102_slow_false
#print axioms Verif.C102_same
#print axioms Verif.C103_defined
#print axioms Verif.C103_shape
#print axioms Verif.C103_polynomial
#print axioms Verif.C103_rounded
#print axioms Verif.C103_function
#print axioms Verif.C103_order
#print axioms Verif.C104_queue
#print axioms Verif.C104_backtrace
#print axioms Verif.C104_disabled
#print axioms Verif.C104_pop_empty_false
#print axioms Verif.C105_no_deadlock
#print axioms Verif.C105_block
#print axioms Verif.C105_once
#print axioms Verif.C105_order
#print axioms Verif.C105_terminates
#print axioms Verif.C105_completes
#print axioms Verif.C105_zero_false
#print axioms Verif.C105_order_false
#print axioms Verif.C106_body
#print axioms Verif.C106_total
#print axioms Verif.C106_overlap
#print axioms Verif.C106_fraction
#print axioms Verif.C106_sphere_false
#print axioms Verif.C107_registry
#print axioms Verif.C107_printed
#print axioms Verif.C107_level
#print axioms Verif.C107_old_default_false
#print axioms Verif.C107_new_default_false
#print axioms Verif.C107_off_false
#print axioms Verif.C108_complete
#print axioms Verif.C108_terminates
#print axioms Verif.C108_mismatch
#print axioms Verif.C108_shifted_false
#print axioms Verif.C109_converges
#print axioms Verif.C109_response
#print axioms Verif.C109_run
#print axioms Verif.C109_spheres
#print axioms Verif.C110_folders
#print axioms Verif.C110_written
#print axioms Verif.C110_completes
#print axioms Verif.C110_makeSubFolder
#print axioms Verif.C110_direct_false
#print axioms Verif.C110_file_false
#print axioms Verif.C111_plane
#print axioms Verif.C111_projection
#print axioms Verif.C112_fixed
#print axioms Verif.C112_random
#print axioms Verif.C112_uniform
#print axioms Verif.C112_scale
#print axioms Verif.C112_rounded_partial
#print axioms Verif.C112_rounding_false
#print axioms Verif.C113_step
#print axioms Verif.C113_rest
#print axioms Verif.C113_progress
#print axioms Verif.C114_start
#print axioms Verif.C114_constraints
#print axioms Verif.C114_motion
#print axioms Verif.C114_positions
#print axioms Verif.C114_boundaries
#print axioms Verif.C115_start
#print axioms Verif.C115_constraints
#print axioms Verif.C115_motion
#print axioms Verif.C115_positions
#print axioms Verif.C115_orthogonal
#print axioms Verif.C115_boundaries
#print axioms Verif.C116_start
#print axioms Verif.C116_constraints_partial
#print axioms Verif.C116_motion_partial
#print axioms Verif.C116_positions_partial
#print axioms Verif.C116_false
#print axioms Verif.C117_constraints
#print axioms Verif.C117_motion
#print axioms Verif.C117_positions
#print axioms Verif.C117_turn_partial
#print axioms Verif.C117_turn_false
#print axioms Verif.C117_thermal_partial
#print axioms Verif.C117_thermal_false
#print axioms Verif.C118_start
#print axioms Verif.C118_constraints
#print axioms Verif.C118_motion_partial
#print axioms Verif.C118_positions_partial
#print axioms Verif.C118_turn
#print axioms Verif.C118_thermal
#print axioms Verif.C119_names
#print axioms Verif.C119_bounded
#print axioms Verif.C119_history
#print axioms Verif.C119_full_partial
#print axioms Verif.C119_refused_false
#print axioms Verif.C119_reopen_false
#print axioms Verif.C120_log
#print axioms Verif.C120_unique
#print axioms Verif.C120_repeated
#print axioms Verif.C120_level_false
#print axioms Verif.C120_ambiguous_false
#print axioms Verif.C121_report
#print axioms Verif.C121_clean
#print axioms Verif.C121_solution_false
#print axioms Verif.C121_nan_false
#print axioms Verif.C122_read
#print axioms Verif.C122_levels
#print axioms Verif.C122_ignored
#print axioms Verif.C122_star_false
#print axioms Verif.C122_blank_false
#print axioms Verif.C122_unrecognised_false
#print axioms Verif.C122_argv_false
#print axioms Verif.C123_made
#print axioms Verif.C123_stopped
#print axioms Verif.C123_opened
#print axioms Verif.C123_file_false
#print axioms Verif.C124_files
#print axioms Verif.C124_name
#print axioms Verif.C124_midnight
#print axioms Verif.C124_limit
#print axioms Verif.C124_invalid
#print axioms Verif.C124_truncate_false
#print axioms Verif.C124_removed_false
#print axioms Verif.C124_late_false
#print axioms Verif.C125_pvtp
#print axioms Verif.C125_pvtu
#print axioms Verif.C125_headers
#print axioms Verif.C125_piece
#print axioms Verif.C125_written
#print axioms Verif.C125_content
#print axioms Verif.C125_frames
#print axioms Verif.C125_quote_false
#print axioms Verif.C126_files
#print axioms Verif.C126_limit
#print axioms Verif.C126_late_false
#print axioms Verif.C127_sinks
#print axioms Verif.C127_trace
#print axioms Verif.C127_plain
#print axioms Verif.C127_once_false
