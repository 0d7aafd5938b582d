{
 "claims": [
  {
   "property": "C01",
   "status": "proved",
   "theorems": [
    "Verif.C01_base64_roundtrip",
    "Verif.C01_base64_roundtrip_in_place"
   ],
   "note": ""
  },
  {
   "property": "C02",
   "status": "proved",
   "theorems": [
    "Verif.C02_base64_rfc4648"
   ],
   "note": ""
  },
  {
   "property": "C03",
   "status": "partial",
   "theorems": [
    "Verif.C03_stream_decode_false",
    "Verif.C03_end_mark_decodes_as_byte",
    "Verif.C03_stream_decode_partial"
   ],
   "note": "false as stated: the end mark decodes to one byte and exact-fit buffers overflow; negation and exact characterisation proved"
  },
  {
   "property": "C04",
   "status": "partial",
   "theorems": [
    "Verif.C04_vtk_header_partial",
    "Verif.C04_header_truncates"
   ],
   "note": "holds below 2^32 bytes, false from 2^32 bytes on"
  },
  {
   "property": "C05",
   "status": "partial",
   "theorems": [
    "Verif.C05_wrap",
    "Verif.C05_wrap_fixed",
    "Verif.C05_wrap_diverges",
    "Verif.C05_wrap_rounding_false",
    "Verif.C05_wrap_rounding_partial",
    "Verif.C05_wrap_absorbed_diverges"
   ],
   "note": "proved in exact arithmetic; false for binary64-like rounding (result can equal ub)"
  },
  {
   "property": "C06",
   "status": "proved",
   "theorems": [
    "Verif.C06_nearest_image"
   ],
   "note": "exact arithmetic"
  },
  {
   "property": "C07",
   "status": "proved",
   "theorems": [
    "Verif.C07_sortDataWithTag",
    "Verif.C07_length_mismatch"
   ],
   "note": ""
  },
  {
   "property": "C08",
   "status": "proved",
   "theorems": [
    "Verif.C08_exchange",
    "Verif.C08_conservation",
    "Verif.C08_inadmissible"
   ],
   "note": ""
  },
  {
   "property": "C09",
   "status": "partial",
   "theorems": [
    "Verif.C09_distribute_partial",
    "Verif.C09_distribute_overflow",
    "Verif.C09_distribute_false",
    "Verif.C09_distribute_dimension_zero",
    "Verif.C09_collect",
    "Verif.C09_collectAll",
    "Verif.C09_roundtrip_partial"
   ],
   "note": "holds while ranks*points fits int; overflows otherwise"
  },
  {
   "property": "C10",
   "status": "proved",
   "theorems": [
    "Verif.C10_disjoint",
    "Verif.C10_stream",
    "Verif.C10_cover",
    "Verif.C10_bad_thread"
   ],
   "note": "TRNG split enters through its leapfrog contract"
  },
  {
   "property": "C52",
   "status": "proved",
   "theorems": [
    "Verif.C52_global_indices"
   ],
   "note": ""
  },
  {
   "property": "C53",
   "status": "proved",
   "theorems": [
    "Verif.C53_two_block_map",
    "Verif.C53_two_block_vector",
    "Verif.C53_not_contiguous"
   ],
   "note": ""
  },
  {
   "property": "C11",
   "status": "partial",
   "theorems": [
    "Verif.C11_run_ok",
    "Verif.C11_get",
    "Verif.C11_run_complete",
    "Verif.C11_homeless_word",
    "Verif.C11_reorder",
    "Verif.C11_positional_after_flag",
    "Verif.C11_positional_false"
   ],
   "note": "the clause that a positional word is accepted wherever it stands is false: behind a flag it is taken as its value"
  },
  {
   "property": "C12",
   "status": "partial",
   "theorems": [
    "Verif.C12_fields",
    "Verif.C12_complete",
    "Verif.C12_missing",
    "Verif.C12_order",
    "Verif.C12_boundaries_partial",
    "Verif.C12_boundaries_known",
    "Verif.C12_no_boundaries",
    "Verif.C12_boundaries_false"
   ],
   "note": "an entry of unknown type in the boundaries list is silently dropped; everything else holds"
  },
  {
   "property": "C13",
   "status": "proved",
   "theorems": [
    "Verif.C13_unit",
    "Verif.C13_rotation",
    "Verif.C13_compose",
    "Verif.C13_small",
    "Verif.C13_stepEuler"
   ],
   "note": "exact real arithmetic"
  },
  {
   "property": "C14",
   "status": "proved",
   "theorems": [
    "Verif.C14_orientation",
    "Verif.C14_circle",
    "Verif.C14_sphere"
   ],
   "note": "exact real arithmetic"
  },
  {
   "property": "C15",
   "status": "proved",
   "theorems": [
    "Verif.C15_tangent",
    "Verif.C15_gram",
    "Verif.C15_product",
    "Verif.C15_derivative",
    "Verif.C15_cross"
   ],
   "note": ""
  },
  {
   "property": "C16",
   "status": "partial",
   "theorems": [
    "Verif.C16_copySwap_false",
    "Verif.C16_copySwap_partial",
    "Verif.C16_copySwap_actual"
   ],
   "note": "false: both arguments end up as the first value unless they were equal"
  },
  {
   "property": "C17",
   "status": "partial",
   "theorems": [
    "Verif.C17_fifo_partial",
    "Verif.C17_overflow",
    "Verif.C17_truncation",
    "Verif.C17_fifo_false",
    "Verif.C17_constructor_keeps"
   ],
   "note": "holds below 2^31 bytes; beyond, the int size in write throws or truncates"
  },
  {
   "property": "C18",
   "status": "proved",
   "theorems": [
    "Verif.C18_nearest",
    "Verif.C18_fixed",
    "Verif.C18_idempotent",
    "Verif.C18_nonexpansive"
   ],
   "note": ""
  },
  {
   "property": "C19",
   "status": "partial",
   "theorems": [
    "Verif.C19_defined",
    "Verif.C19_zero_at_solution_partial",
    "Verif.C19_solution_of_zero_partial",
    "Verif.C19_descent_bound",
    "Verif.C19_minimises",
    "Verif.C19_near_minimum",
    "Verif.C19_equal_bounds_false",
    "Verif.C19_inside_tolerance_false",
    "Verif.C19_rounding_exit"
   ],
   "note": "the equivalence is false for coinciding bounds and within 100 machine epsilons of a bound; proved away from these, with a quantitative bound that always holds"
  },
  {
   "property": "C20",
   "status": "partial",
   "theorems": [
    "Verif.C20_bbpgd_partial",
    "Verif.C20_feasible",
    "Verif.C20_exhausted",
    "Verif.C20_returns",
    "Verif.C20_false",
    "Verif.C20_guess_false"
   ],
   "note": "false when the iteration limit is reached (previous iterate returned) and for infeasible initial guesses; C92 shows where the residual gets below the tolerance and where it never does"
  },
  {
   "property": "C21",
   "status": "partial",
   "theorems": [
    "Verif.C21_apgd_partial",
    "Verif.C21_returns",
    "Verif.C21_false",
    "Verif.C21_ones_undefined"
   ],
   "note": "false when no iteration completes: the vector of ones is returned; undefined for the initial guess of ones"
  },
  {
   "property": "C22",
   "status": "partial",
   "theorems": [
    "Verif.C22_residual",
    "Verif.C22_bbpgd_partial",
    "Verif.C22_bbpgd_returns",
    "Verif.C22_bbpgd_false",
    "Verif.C22_apgd_partial",
    "Verif.C22_apgd_returns",
    "Verif.C22_newton_partial",
    "Verif.C22_newton_returns",
    "Verif.C22_newton_false",
    "Verif.C22_newton_stall_false"
   ],
   "note": "residual characterised; solver claims hold on convergence of the projected gradient methods; false at the iteration limit and for the Newton solver"
  },
  {
   "property": "C23",
   "status": "proved",
   "theorems": [
    "Verif.C23_apply",
    "Verif.C23_reject",
    "Verif.C23_spd"
   ],
   "note": "exact real arithmetic; the transpose mode, which the code ignores, makes no difference for symmetric mobilities"
  },
  {
   "property": "C24",
   "status": "partial",
   "theorems": [
    "Verif.C24_constraintOperator",
    "Verif.C24_cpMatOp_false",
    "Verif.C24_cpMatOp_partial",
    "Verif.C24_mmNewton_false",
    "Verif.C24_mmNewton_partial",
    "Verif.C24_kinv_false"
   ],
   "note": "holds for ConstraintOperator; false for CPMatOp, mmNewtonOperator, KinvOperator"
  },
  {
   "property": "C25",
   "status": "partial",
   "theorems": [
    "Verif.C25_partial",
    "Verif.C25_resolveConstraints",
    "Verif.C25_false"
   ],
   "note": "setup resets the parameters; holds if setup and reset do not come after"
  },
  {
   "property": "C26",
   "status": "partial",
   "theorems": [
    "Verif.C26_split_partial",
    "Verif.C26_sum",
    "Verif.C26_false"
   ],
   "note": "holds on convergence; at the iteration limit the reported forces belong to another vector"
  },
  {
   "property": "C63",
   "status": "proved",
   "theorems": [
    "Verif.C63_gradient",
    "Verif.C63_complementarity"
   ],
   "note": "exact arithmetic"
  },
  {
   "property": "C27",
   "status": "proved",
   "theorems": [
    "Verif.C27_build_defined",
    "Verif.C27_gap_rate",
    "Verif.C27_force",
    "Verif.C27_power_balance",
    "Verif.C27_stress_roundtrip",
    "Verif.C27_reverse"
   ],
   "note": "exact real arithmetic; int overflow of indices is a distinct outcome; Tpetra's apply and transposition by contract"
  },
  {
   "property": "C28",
   "status": "proved",
   "theorems": [
    "Verif.C28_numbering",
    "Verif.C28_clear"
   ],
   "note": "all pools, all orders of the threads' writes"
  },
  {
   "property": "C29",
   "status": "proved",
   "theorems": [
    "Verif.C29_stress_total",
    "Verif.C29_threads_irrelevant"
   ],
   "note": "exact real addition"
  },
  {
   "property": "C30",
   "status": "partial",
   "theorems": [
    "Verif.C30_once_partial",
    "Verif.C30_history_partial",
    "Verif.C30_not_repeatable"
   ],
   "note": "false for repeated write-back: the stress is multiplied again each time"
  },
  {
   "property": "C33",
   "status": "partial",
   "theorems": [
    "Verif.C33_sphere_partial",
    "Verif.C33_center_false"
   ],
   "note": "all queries but the centre, where the code divides by zero"
  },
  {
   "property": "C34",
   "status": "proved",
   "theorems": [
    "Verif.C34_wall"
   ],
   "note": "normal non-zero; exact real arithmetic"
  },
  {
   "property": "C35",
   "status": "partial",
   "theorems": [
    "Verif.C35_tube_partial",
    "Verif.C35_axis_false"
   ],
   "note": "all queries off the axis; on the axis the returned point is not on the surface"
  },
  {
   "property": "C36",
   "status": "partial",
   "theorems": [
    "Verif.C36_sphere_accepts_partial",
    "Verif.C36_sphere_sound",
    "Verif.C36_wall_accepts_partial",
    "Verif.C36_wall_sound",
    "Verif.C36_tube_accepts_partial",
    "Verif.C36_tube_sound",
    "Verif.C36_on_boundary_false"
   ],
   "note": "the check rejects correct projections of queries on the boundary; soundness proved for radii above the tolerance"
  },
  {
   "property": "C31",
   "status": "proved",
   "theorems": [
    "Verif.C31_point_segment"
   ],
   "note": "exact real arithmetic; all segments"
  },
  {
   "property": "C32",
   "status": "partial",
   "theorems": [
    "Verif.C32_points_partial",
    "Verif.C32_minimum_partial",
    "Verif.C32_parallel_partial",
    "Verif.C32_ideal_partial",
    "Verif.C32_error_partial",
    "Verif.C32_exact_partial",
    "Verif.C32_rods_partial",
    "Verif.C32_false"
   ],
   "note": "minimality fails for the code: the mid point shortcut with tolerance 2^-52 can return a distance 40% too large (proved witness); proved whenever the shortcut is not taken, for parallel segments, for the algorithm without the tolerance, and with the tolerance of the code for segments where no perpendicular from one meets the other or two of them differ by at least 2^-25.5; elsewhere the error of the squared distance is bounded by 2^-51 max(|Q|^2,1) divided by the part of the second segment whose perpendiculars meet the first"
  },
  {
   "property": "C37",
   "status": "partial",
   "theorems": [
    "Verif.C37_contact_partial",
    "Verif.C37_touching_false"
   ],
   "note": "unit normals fail when the axes touch (Eigen's normalized() of zero is zero); separation proved where DCPQuery is exact (all pairs with a sphere; C32 for rods)"
  },
  {
   "property": "C38",
   "status": "proved",
   "theorems": [
    "Verif.C38_stress",
    "Verif.C38_recorded",
    "Verif.C38_spheres",
    "Verif.C38_turned"
   ],
   "note": "positive radii, unit directions; symmetric, exchange and translation invariant, turned with the bodies, trace and sphere value proved"
  },
  {
   "property": "C39",
   "status": "partial",
   "theorems": [
    "Verif.C39_once_partial",
    "Verif.C39_false"
   ],
   "note": "FDPS tree by contract, no periodic images (C84 has the tree and the images instead of the contract); exactness of DCPQuery and search radius as hypotheses where C32/C40 fail. C39_false: two rods with radius 2/5 that overlap by 3/10 and get no contact, since DCPQuery is wrong."
  },
  {
   "property": "C40",
   "status": "partial",
   "theorems": [
    "Verif.C40_search_partial",
    "Verif.C40_ratio_partial",
    "Verif.C40_false"
   ],
   "note": "fails for spheres with collision ratio above one (getRSearch uses lengthCollision twice); proved for all rods, and for spheres with ratio at most one"
  },
  {
   "property": "C41",
   "status": "partial",
   "theorems": [
    "Verif.C41_ends_partial",
    "Verif.C41_convex_partial",
    "Verif.C41_rods",
    "Verif.C41_short_false",
    "Verif.C41_obstacle_false",
    "Verif.C41_on_boundary_false",
    "Verif.C41_tube_axis_false",
    "Verif.C41_centre_false"
   ],
   "note": "Proved for every boundary with a convex allowed side (walls, inside of spheres and tubes) and every body whose ends are not exactly on the boundary or at a singular point and whose radius is within the recording distance (always for rods); for the other boundaries proved for the ends of the body. Missing cases are false of the code and shown so: short bodies treated as spheres, rods across an obstacle, ends exactly on a boundary, bodies on the axis of a tube or at the centre of a sphere."
  },
  {
   "property": "C42",
   "status": "proved",
   "theorems": [
    "Verif.C42_drag",
    "Verif.C42_inverse",
    "Verif.C42_spd",
    "Verif.C42_immovable"
   ],
   "note": "positive radius and viscosity, unit quaternions; the constraint solver is any function whose velocities are the mobility times its forces"
  },
  {
   "property": "C43",
   "status": "partial",
   "theorems": [
    "Verif.C43_velocity_partial",
    "Verif.C43_monolayer_false"
   ],
   "note": "false in a monolayer with Brownian motion: the Brownian velocity that moves the body is not restricted to the plane while the one given to the solver is; proved in all other cases"
  },
  {
   "property": "C64",
   "status": "proved",
   "theorems": [
    "Verif.C64_covariance"
   ],
   "note": "exact reals; Eigen's LLT modelled by the textbook algorithm"
  },
  {
   "property": "C65",
   "status": "partial",
   "theorems": [
    "Verif.C65_plane_partial",
    "Verif.C65_upright_false"
   ],
   "note": "false for a body standing exactly upright"
  },
  {
   "property": "C44",
   "status": "proved",
   "theorems": [
    "Verif.C44_folders"
   ],
   "note": "snapshot numbers whose folder range fits an int"
  },
  {
   "property": "C45",
   "status": "proved",
   "theorems": [
    "Verif.C45_cadence",
    "Verif.C45_exact",
    "Verif.C45_resumed",
    "Verif.C45_zero",
    "Verif.C45_decimal_false"
   ],
   "note": "C45_exact over the reals, C45_cadence with any correctly rounded quotient and product; C45_zero: timeSnap < dt is a remainder by zero; C45_decimal_false: the doubles 0.3 and 0.1 give a snapshot every 2 steps, as floor of the rounded inputs says, not every 3"
  },
  {
   "property": "C46",
   "status": "partial",
   "theorems": [
    "Verif.C46_restart_partial",
    "Verif.C46_rounded_partial",
    "Verif.C46_history",
    "Verif.C46_seed_partial",
    "Verif.C46_rounded_false",
    "Verif.C46_folder_false",
    "Verif.C46_seed_false"
   ],
   "note": "proved for stored values that are single precision numbers and as many ranks as before, with error bounds otherwise; false for other values (velocities are stored in single precision), for another number of ranks (the folder name depends on it) and for the seed after a run that died before its first snapshot"
  },
  {
   "property": "C50",
   "status": "partial",
   "theorems": [
    "Verif.C50_roundtrip_partial",
    "Verif.C50_rounded_partial",
    "Verif.C50_short_false",
    "Verif.C50_digits_false"
   ],
   "note": "exact for numbers of at most eight digits and bodies longer than 1e-7, with error bounds otherwise; false otherwise"
  },
  {
   "property": "C47",
   "status": "partial",
   "theorems": [
    "Verif.C47_named_partial",
    "Verif.C47_single_partial",
    "Verif.C47_next_partial",
    "Verif.C47_ranks_false",
    "Verif.C47_truncated_false"
   ],
   "note": "proved: on one rank the restart file is absent, cut short or names a complete snapshot at every crash point, and on any number of ranks what it names was begun by rank 0 after rank 0's own files; false with two or more ranks, since rank 0 writes the restart file without waiting for the others, and false while the restart file is being rewritten"
  },
  {
   "property": "C48",
   "status": "proved",
   "theorems": [
    "Verif.C48_addition",
    "Verif.C48_history"
   ],
   "note": "for every result of shuffle that is a permutation; an int overflow of the ids is an outcome of its own"
  },
  {
   "property": "C49",
   "status": "partial",
   "theorems": [
    "Verif.C49_links_partial",
    "Verif.C49_reread_false",
    "Verif.C49_duplicate_false"
   ],
   "note": "agreement of the maps proved for reading at most once before adding, equality over ranks and no missing reverse link for every history; false when links are read again (the reverse map is not cleared) and for duplicates (never removed)"
  },
  {
   "property": "C51",
   "status": "partial",
   "theorems": [
    "Verif.C51_box_partial",
    "Verif.C51_negative_false"
   ],
   "note": "low corner proved; high corner proved for axes with a coordinate of at least 2^-1022; false otherwise, since the maximum starts from numeric_limits<double>::min(), the smallest positive number"
  },
  {
   "property": "C54",
   "status": "proved",
   "theorems": [
    "Verif.C54_capacity"
   ],
   "note": "for setTreeSylinder and for updateTree, up to 2^30 bodies (beyond, 2*nGlobal overflows int)"
  },
  {
   "property": "C55",
   "status": "proved",
   "theorems": [
    "Verif.C55_order",
    "Verif.C55_empty"
   ],
   "note": "for every distribution over ranks and threads; no body is a division by zero"
  },
  {
   "property": "C56",
   "status": "proved",
   "theorems": [
    "Verif.C56_axes"
   ],
   "note": ""
  },
  {
   "property": "C61",
   "status": "proved",
   "theorems": [
    "Verif.C61_stress",
    "Verif.C61_distribution",
    "Verif.C61_zero"
   ],
   "note": "KBT = 0 is a division by zero"
  },
  {
   "property": "C58",
   "status": "partial",
   "theorems": [
    "Verif.C58_latest_partial",
    "Verif.C58_stale_false"
   ],
   "note": "Proved: after any history of publications find returns, for every requested id ever published, the datum most recently published under it, and the status is OK exactly if all requested ids were published at some time. False: ids that are no longer published are still found, since the directory is never emptied (C58_stale_false). Zoltan's directory is an assumption."
  },
  {
   "property": "C60",
   "status": "partial",
   "theorems": [
    "Verif.C60_links_partial",
    "Verif.C60_bodies_partial",
    "Verif.C60_touching_false",
    "Verif.C60_outside_false",
    "Verif.C60_missing_false"
   ],
   "note": "Proved for first bodies inside the box on periodic axes, data held by the directory, positive radii; C60_bodies_partial with the directory built from the bodies of all ranks. False: coinciding ends give zero normals; a first body outside the box gets an image that is not the nearest; ids not held give constraints with arbitrary data since the status of find is ignored."
  },
  {
   "property": "C57",
   "status": "proved",
   "theorems": [
    "Verif.C57_copies",
    "Verif.C57_order",
    "Verif.C57_mix"
   ],
   "note": "for all classes whose position functions fit together; with the functor FindPair of the repository the counts and pairs are exact, for every other functor the entry of a target is what the functor gave for it. What FDPS' tree does is an assumption (CalcForceAll in Model/Mix.lean)."
  },
  {
   "property": "C66",
   "status": "partial",
   "theorems": [
    "Verif.C66_wrap",
    "Verif.C66_fixed",
    "Verif.C66_links",
    "Verif.C66_rounding",
    "Verif.C66_rounding_false",
    "Verif.C66_far_false"
   ],
   "note": "proved in exact arithmetic and, for coordinates on which the loops end and boxes whose extent is representable, in any monotone rounding. False: if high - low has to be rounded the result can be below low; on axes that are not periodic bodies beyond largeFloat are moved."
  },
  {
   "property": "C59",
   "status": "partial",
   "theorems": [
    "Verif.C59_init_partial",
    "Verif.C59_length_false",
    "Verif.C59_zero_false",
    "Verif.C59_diverges"
   ],
   "note": "Proved: ids, centres in the box or circle, random lengths below the maximum, unit orientations and directors along the configured direction. False: fixed lengths are not compared with the maximum; a direction with all components zero gives a quaternion that is not a unit; the call does not end if no drawn length is below the maximum. Eigen's FromTwoVectors is modelled, its SVD axis is an assumption; within 1.5e-6 of -z the director is only within 3e-6."
  },
  {
   "property": "C62",
   "status": "partial",
   "theorems": [
    "Verif.C62_bodies_partial",
    "Verif.C62_constraints_partial",
    "Verif.C62_pieces",
    "Verif.C62_overflow_false"
   ],
   "note": "For every number of bodies/constraints of a rank such that 6n (9n) is an int, every distribution over queues and every order of the threads' writes: all arrays have components*count entries, names, types and components are those of the parallel header in the same order, lines join points 2k and 2k+1, tuple k holds the data of item k; header sources are the files the ranks write. Beyond that size the products overflow an int (C62_overflow_false)."
  },
  {
   "property": "C67",
   "status": "partial",
   "theorems": [
    "Verif.C67_radix_sort_correct",
    "Verif.C67_other_schedules_false",
    "Verif.C67_smaller_team_false"
   ],
   "note": "Proved for every execution with a static schedule (the same for both loops) and a full team; false for the schedules and team sizes OpenMP also allows when no schedule clause is given, as in the code."
  },
  {
   "property": "C68",
   "status": "partial",
   "theorems": [
    "Verif.C68_key_defined",
    "Verif.C68_prefix_iff_same_cell",
    "Verif.C68_cellID_is_octant",
    "Verif.C68_upper_face_false"
   ],
   "note": "Proved in exact arithmetic for positions in the half-open root cell. False on the upper face: such a position gets the key of the opposite face."
  },
  {
   "property": "C69",
   "status": "partial",
   "theorems": [
    "Verif.C69_point_tests",
    "Verif.C69_overlap_iff_common_point",
    "Verif.C69_merge_is_hull",
    "Verif.C69_merge_points",
    "Verif.C69_distance_to_point",
    "Verif.C69_distance_to_box",
    "Verif.C69_shift",
    "Verif.C69_distance_negative_box_false"
   ],
   "note": "Proved in exact arithmetic for boxes with a point; the distance to the empty box of initNegativeVolume is 0."
  },
  {
   "property": "C70",
   "status": "partial",
   "theorems": [
    "Verif.C70_partition_search",
    "Verif.C70_linkCell_builds_tree",
    "Verif.C70_levels_and_blocks",
    "Verif.C70_partition_search_single_false",
    "Verif.C70_leaf_limit_zero_false"
   ],
   "note": "Proved for every sorted key list, leaf limit at least 1 (checked by the caller), arbitrary old memory and every order of the parallel loop over parents; each iteration is taken as a whole. Addresses are unbounded naturals (U32 in the code). False for leaf limit 0."
  },
  {
   "property": "C71",
   "status": "partial",
   "theorems": [
    "Verif.C71_cell_boxes",
    "Verif.C71_huge_coordinates_false"
   ],
   "note": "Proved for every linked tree, old memory and order of the loops, if coordinate plus radius stays below LARGE_FLOAT; false beyond that number (boxes are too large then, never too small)."
  },
  {
   "property": "C72",
   "status": "proved",
   "theorems": [
    "Verif.C72_interaction_list",
    "Verif.C72_no_neighbour_missed"
   ],
   "note": "exact arithmetic, search radii not negative"
  },
  {
   "property": "C73",
   "status": "proved",
   "theorems": [
    "Verif.C73_groups_partition"
   ],
   "note": "n_group_limit at least n_leaf_limit is checked by initialize"
  },
  {
   "property": "C74",
   "status": "partial",
   "theorems": [
    "Verif.C74_images_exact",
    "Verif.C74_open_box",
    "Verif.C74_outside_false",
    "Verif.C74_no_extent_diverges"
   ],
   "note": "Proved in exact arithmetic for boxes that meet the root domain along the periodic axes; false for boxes outside of it (images are missed); a periodic axis without extent never ends."
  },
  {
   "property": "C75",
   "status": "partial",
   "theorems": [
    "Verif.C75_image_id",
    "Verif.C75_outside_diverges"
   ],
   "note": "Proved for positions that are images of a position of the root domain; for others along a non-periodic axis the search never ends."
  },
  {
   "property": "C76",
   "status": "proved",
   "theorems": [
    "Verif.C76_exchange"
   ],
   "note": "Exact arithmetic; MPI moves blocks unchanged; flat arrays are nested lists. The domains lie in the root domain, and the root cell contains the images (C77)."
  },
  {
   "property": "C77",
   "status": "partial",
   "theorems": [
    "Verif.C77_root_cell",
    "Verif.C77_point_false"
   ],
   "note": "False for open boundaries if all particles are in one point without search radius."
  },
  {
   "property": "C78",
   "status": "proved",
   "theorems": [
    "Verif.C78_calc_force_all"
   ],
   "note": "Exact arithmetic; schedules of the radix sort are static; particles lie in the domain of their rank. Setup excludes what C77 excludes, and radii of 9998 or more box lengths if all axes are periodic (start value 9999 of a search for runs)."
  },
  {
   "property": "C79",
   "status": "proved",
   "theorems": [
    "Verif.C79_grid"
   ],
   "note": "pow in exact arithmetic; the result does not depend on its rounding as long as the guess is at least 1"
  },
  {
   "property": "C80",
   "status": "partial",
   "theorems": [
    "Verif.C80_tiling",
    "Verif.C80_balance",
    "Verif.C80_few_samples_false"
   ],
   "note": "Proved in exact arithmetic if there are at least as many samples as ranks; with fewer (fewer bodies than ranks) every decomposition reads outside the array of samples."
  },
  {
   "property": "C81",
   "status": "partial",
   "theorems": [
    "Verif.C81_samples",
    "Verif.C81_total",
    "Verif.C81_empty_false"
   ],
   "note": "Proved in exact arithmetic if there is a particle; without any the number of samples is 0/0 converted to an integer. At least as many samples as ranks needs an average target of 2 or more (the code uses 200)."
  },
  {
   "property": "C82",
   "status": "partial",
   "theorems": [
    "Verif.C82_exchange",
    "Verif.C82_nothing_lost",
    "Verif.C82_upper_face_false"
   ],
   "note": "Proved for particles in the half-open root domain. The check of the code is for the closed domain: a particle on an upper face passes it and the search for its domain then runs out of the array (negation proved)."
  },
  {
   "property": "C83",
   "status": "partial",
   "theorems": [
    "Verif.C83_placed",
    "Verif.C83_layer",
    "Verif.C83_progress",
    "Verif.C83_bodies",
    "Verif.C83_monolayer_false"
   ],
   "note": "Proved without the monolayer option, and with it if the grid of ranks has one layer and the plane is in the box (C83_layer), in exact arithmetic, with at least as many bodies as ranks. With the monolayer option bodies are projected after they have been distributed; if there are two layers of domains some run has a body outside the domain of its rank (negation proved)."
  },
  {
   "property": "C84",
   "status": "partial",
   "theorems": [
    "Verif.C84_pairs_partial",
    "Verif.C84_run_partial",
    "Verif.C84_layer_partial",
    "Verif.C91_rods_false"
   ],
   "note": "Proved in exact arithmetic for every state of a run without the monolayer option, or with it and one layer of ranks. Missing: rods for which DCPQuery is wrong (false there: C39_false, C91_rods_false), enlarged spheres that getRSearch misses (C40_false; excluded by Body). A body is never paired with its own images (same id); the statement is about different ids."
  },
  {
   "property": "C85",
   "status": "proved",
   "theorems": [
    "Verif.C85_tree",
    "Verif.C85_mix"
   ],
   "note": "Exact arithmetic. C85_tree derives for any functor what C57 assumes of the tree from C78; C85_mix is the composition with C57_mix. Hypothesis: every particle lies in the domain of its rank (the class does not exchange particles, MixPairInteraction.hpp:143)."
  },
  {
   "property": "C86",
   "status": "proved",
   "theorems": [
    "Verif.C86_sequence",
    "Verif.C86_ranges",
    "Verif.C86_samples"
   ],
   "note": "The arithmetic of the doubles is exact here (32- and 53-bit integers times powers of two; only genrand_real1 and genrand_real3 round in the code). init_by_array is private and never called: not modelled."
  },
  {
   "property": "C87",
   "status": "partial",
   "theorems": [
    "Verif.C87_calls_partial",
    "Verif.C87_memory_partial",
    "Verif.C87_empty_partial",
    "Verif.C87_calls_false_unallocated",
    "Verif.C87_calls_false_emergency",
    "Verif.C87_calls_false_regrow",
    "Verif.C87_empty_false"
   ],
   "note": "The theorems are about programs of safe calls (Safe): freeMem is not called with a number outside of cap_per_seg_ (C87_calls_partial and C87_memory_partial are also proved for a freeMem without that error, intended = true), arrays in emergency buffers do not grow outside of parallel regions, reserve is not used to grow, unifyMem is not called with more than 10000 segments and buffers. What is excluded is shown to fail by the _false theorems. Critical sections are atomic steps; size_t does not overflow; malloc does not fail."
  },
  {
   "property": "C88",
   "status": "partial",
   "theorems": [
    "Verif.C88_step_partial",
    "Verif.C88_defined",
    "Verif.C88_free",
    "Verif.C88_false_monolayer"
   ],
   "note": "C88_step_partial: all ranks, everything except monolayers with Brownian motion, for which the property is false (C88_false_monolayer: a body passes a contact whose multiplier is zero). The conditions at the caps of the multipliers (1e8 below, DBL_MAX/10 above) and the rounding of the bounds plus epsilon are part of Solves. The constraints in the pools are given; C72, C73, C74 and C84 say what they are. C88_defined is about the gradient solver with exact comparisons."
  },
  {
   "property": "C89",
   "status": "partial",
   "theorems": [
    "Verif.C89_no_overlap_partial",
    "Verif.C89_rods_partial",
    "Verif.C89_spheres",
    "Verif.C91_rods_false"
   ],
   "note": "Composition of C84 and C88. Missing: pairs of rods for which DCPQuery is wrong (false there: C91_rods_false; C89_rods_partial gives a geometric condition under which it is not), enlarged spheres that getRSearch misses (C40_false, excluded by Body), monolayers with Brownian motion (C88_false_monolayer), multipliers at their upper cap. A body and its own images get no contact, so the statement is about different ids. For rods the bound is first order in dt, as is the problem the solver is given."
  },
  {
   "property": "C90",
   "status": "partial",
   "theorems": [
    "Verif.C90_ends_partial",
    "Verif.C90_bodies_partial",
    "Verif.C90_obstacle_false"
   ],
   "note": "Composition of C41 and C88. Missing: ends exactly on a boundary or at a singular point of it (C41_on_boundary_false, C41_tube_axis_false, C41_centre_false), rods at obstacles (false there: C90_obstacle_false, a run in which a rod pierces a ball for ever), monolayers with Brownian motion (C88_false_monolayer), multipliers at their upper cap. The bound is first order in dt, with the second order term of curved boundaries."
  },
  {
   "property": "C91",
   "status": "partial",
   "theorems": [
    "Verif.C91_bodies",
    "Verif.C91_no_overlap_partial",
    "Verif.C91_spheres",
    "Verif.C91_boundaries_partial",
    "Verif.C91_progress",
    "Verif.C91_layer",
    "Verif.C91_layer_no_overlap_partial",
    "Verif.C91_rods_false",
    "Verif.C90_obstacle_false"
   ],
   "note": "Induction over the run; composition of C40, C41, C52, C60, C83, C84, C88, C89, C90. Monolayers are included with one layer of ranks, no Brownian motion and no body exactly upright when a step starts (C91_layer). Missing: other monolayers (false there: C83_monolayer_false, C43, C65); pairs of long rods whose closest points the code does not find exactly (false there: C91_rods_false, a run in which two rods overlap after every step); rods at obstacles (C90_obstacle_false); ends exactly on a boundary or at a singular point of it; progress for the solver choice 1 and with rounded comparisons (the gradient solver with exact arithmetic only); that the solver converges (a hypothesis of the bounds; proved for dilute steps in C109)."
  },
  {
   "property": "C92",
   "status": "partial",
   "theorems": [
    "Verif.C92_conditioned_partial",
    "Verif.C92_unbound_partial",
    "Verif.C92_separate_partial",
    "Verif.C92_persists_partial",
    "Verif.C92_cycle_false",
    "Verif.C92_wedge_false"
   ],
   "note": "False: on a strictly convex problem with two unknowns the iterates repeat with period 4 for ever, and a sphere pushed into the wedge between two walls passes through both at limits 9 + 4 n, however large (the residual stays above 0.1). Proved: it converges when the largest and smallest curvature differ by less than a factor of 2 (any bounds), for any curvatures when the bounds do not bind (solution further from them than a distance that depends on the number of unknowns, the curvatures and the gradient at the guess only), for any curvatures and any bounds when no two constraints act on the same body (diagonal matrix), and for all strictly convex problems it never gives up before the limit. Missing: coupled constraints with binding bounds and curvatures further apart, where it is false."
  },
  {
   "property": "C93",
   "status": "partial",
   "theorems": [
    "Verif.C93_links_partial",
    "Verif.C93_solved",
    "Verif.C93_touching",
    "Verif.C93_limp_false"
   ],
   "note": "Composition of C60, C88 and C91 with second-order bounds for rotations (Rodrigues formula) and distances; at the cap -10^8 of the multipliers the law holds from one side. Ends that coincide when the constraints are collected: the multiplier is the one for the compressed spring but pushes nothing (C93_touching), a run in which the spring never extends (C93_limp_false). Missing: a bound of second order for such ends (there is no direction), that the solver converges (C92, C109)."
  },
  {
   "property": "C94",
   "status": "proved",
   "theorems": [
    "Verif.C94_ids",
    "Verif.C94_add",
    "Verif.C94_sound"
   ],
   "note": "The runs of C91 and C93 have additions between the steps. Additions between prepareStep and runStep are not modelled. An int overflow of the ids is an outcome of its own."
  },
  {
   "property": "C95",
   "status": "proved",
   "theorems": [
    "Verif.C95_balance",
    "Verif.C95_free"
   ],
   "note": "For the runs of C91. The multipliers are those the operator was last applied to; in a converged step they are those written back. Moments about an axis with a periodic axis across are not balanced by the code, since images of a body are pushed at different places; that is inherent."
  },
  {
   "property": "C96",
   "status": "proved",
   "theorems": [
    "Verif.C96_motion",
    "Verif.C96_immovable",
    "Verif.C96_dissipation"
   ],
   "note": "For the runs of C91 that are not monolayers (there the given and Brownian velocities lose their components out of the plane, C43). The statistics of the Brownian velocity are C64; that the total force is given forces plus constraint forces is C95."
  },
  {
   "property": "C97",
   "status": "proved",
   "theorems": [
    "Verif.C97_work",
    "Verif.C97_energy",
    "Verif.C97_decay"
   ],
   "note": "For the runs of C91; C97_decay not for monolayers. Separations after the step are to first order in the time step; C93 bounds the difference to the distances themselves."
  },
  {
   "property": "C98",
   "status": "partial",
   "theorems": [
    "Verif.C98_resume_partial",
    "Verif.C98_rounded_partial",
    "Verif.C98_life"
   ],
   "note": "For the runs of C91. The life of bodies, ids and links through any number of stops is proved in full; that the resumed run has the same bodies is proved exactly if the stored values are single precision numbers and with error bounds otherwise, for directions that are not nearly opposite to z (C46) and the same number of ranks (C46_folder_false)."
  },
  {
   "property": "C99",
   "status": "partial",
   "theorems": [
    "Verif.C99_exact",
    "Verif.C99_verdict_partial",
    "Verif.C99_accepts_false",
    "Verif.C99_rejects_false"
   ],
   "note": "C99_exact says for which values the check passes. It is what it should be if no pair is (0, 0); otherwise false in both directions: 0/0 in std::max makes it forget the relative errors before (C99_accepts_false), and exact values are rejected if the last one is zero (C99_rejects_false)."
  },
  {
   "property": "C100",
   "status": "proved",
   "theorems": [
    "Verif.C100_start",
    "Verif.C100_constraints",
    "Verif.C100_motion",
    "Verif.C100_positions"
   ],
   "note": "Not for monolayers. C100_motion and C100_positions bound the difference of the motions by what the tolerances of the two solvers leave open, for steps in which both converged with no spring or rigid link at the cap of -10^8.  Over exact reals, with the assumptions on FDPS and MPI of C84."
  },
  {
   "property": "C101",
   "status": "partial",
   "theorems": [
    "Verif.C101_defined",
    "Verif.C101_matrix_partial",
    "Verif.C101_symmetric",
    "Verif.C101_positive_partial",
    "Verif.C101_definite_partial",
    "Verif.C101_definite_false",
    "Verif.C101_matrix_false",
    "Verif.C101_bounds",
    "Verif.C101_quality",
    "Verif.C101_quality_false"
   ],
   "note": "Proved exactly when the arrays make a matrix (no empty column before a used one), that it then is the intended one, symmetric, positive up to n 1e-7, and positive definite if the extra diagonal is above n 1e-7. False: a zero column makes the local column indices disagree with the column map; without an extra diagonal (the default) dropping entries can make the matrix indefinite; the report of test_LCP ignores complementarity."
  },
  {
   "property": "C102",
   "status": "proved",
   "theorems": [
    "Verif.C102_unit",
    "Verif.C102_orientation",
    "Verif.C102_orientation_fast",
    "Verif.C102_position",
    "Verif.C102_slow_false",
    "Verif.C102_same"
   ],
   "note": "Every operation of rotateEquatn, normalize and pos += vel*dt is followed by an arbitrary rounding of relative error u (unbounded exponents: no overflow or underflow; no fused operations; sums from left to right). C102_slow_false shows that the term for slow turns is needed: a body turning at 2^-24 never turns, whatever the number of steps, so no bound C u n holds without it."
  },
  {
   "property": "C103",
   "status": "proved",
   "theorems": [
    "Verif.C103_defined",
    "Verif.C103_shape",
    "Verif.C103_polynomial",
    "Verif.C103_rounded",
    "Verif.C103_function",
    "Verif.C103_order"
   ],
   "note": "All literals of the table are in the model (a script copied them as numerators over 10^129). The kernel evaluates the even moments of each case in integer arithmetic; the theorems about all polynomials and functions are proved from that. An assertion that fails is the outcome none; with assertions off the vectors would be left as they are."
  },
  {
   "property": "C104",
   "status": "proved",
   "theorems": [
    "Verif.C104_queue",
    "Verif.C104_backtrace",
    "Verif.C104_disabled",
    "Verif.C104_pop_empty_false"
   ],
   "note": "pop_front of an empty queue is not guarded by the code (its only caller checks first); C104_pop_empty_false shows what it does."
  },
  {
   "property": "C105",
   "status": "proved",
   "theorems": [
    "Verif.C105_no_deadlock",
    "Verif.C105_block",
    "Verif.C105_once",
    "Verif.C105_order",
    "Verif.C105_terminates",
    "Verif.C105_completes",
    "Verif.C105_zero_false",
    "Verif.C105_order_false"
   ],
   "note": "Threads as a transition system: one step per critical section, notification or handling of a message. Capacity 0, which the constructor accepts, makes the destructor wait for ever (C105_zero_false). Exceptions and reference counts are not modelled. The destructor starts when no client is within a call."
  },
  {
   "property": "C106",
   "status": "proved",
   "theorems": [
    "Verif.C106_body",
    "Verif.C106_total",
    "Verif.C106_overlap",
    "Verif.C106_fraction",
    "Verif.C106_sphere_false"
   ],
   "note": "The volume of a rod is derived from the measure of space (points nearer to a segment than the radius). Overlapping bodies are counted as often as they overlap (C106_overlap). Bodies with length below twice the radius are moved and collided as spheres but counted as rods, which may be less than a third (C106_sphere_false)."
  },
  {
   "property": "C107",
   "status": "proved",
   "theorems": [
    "Verif.C107_registry",
    "Verif.C107_printed",
    "Verif.C107_level",
    "Verif.C107_old_default_false",
    "Verif.C107_new_default_false",
    "Verif.C107_off_false"
   ],
   "note": "Loggers as objects on a heap, the registry's map and default logger, one thread. The default logger of before setup_mpi_spdlog keeps its level for ever (C107_old_default_false), a default logger set later does not get the level (C107_new_default_false), and messages of level off are printed when the level is off (C107_off_false)."
  },
  {
   "property": "C108",
   "status": "proved",
   "theorems": [
    "Verif.C108_complete",
    "Verif.C108_terminates",
    "Verif.C108_mismatch",
    "Verif.C108_shifted_false"
   ],
   "note": "Ranks as a transition system over a shared file; only MPI_Barrier orders them. A file that cannot be opened (fopen returns NULL, which the code does not check) is not modelled. C108_shifted_false: the check compares totals only."
  },
  {
   "property": "C109",
   "status": "proved",
   "theorems": [
    "Verif.C109_converges",
    "Verif.C109_response",
    "Verif.C109_run",
    "Verif.C109_spheres"
   ],
   "note": "Composition of C92_separate_partial with the operator of a step (C61, C88, C96) and the runs of C91. Real arithmetic with exact comparisons and the gradient solver; the tolerance may not be below what the threshold of BCQPSolver.cpp for a vanishing step allows (a hypothesis). Steps in which constraints share movable bodies are C92: there the claim is false in general."
  },
  {
   "property": "C110",
   "status": "partial",
   "theorems": [
    "Verif.C110_folders",
    "Verif.C110_written",
    "Verif.C110_completes",
    "Verif.C110_makeSubFolder",
    "Verif.C110_direct_false",
    "Verif.C110_file_false"
   ],
   "note": "Proved for runs in which a time step (its collective operations) comes between initialize and the first writeResult, as in SylinderSystem_main.cpp, and for restarted runs. False (negations proved) if writeResult, which is public, is called right after initialize, and if there is a file called result: makeSubFolder does not look whether what exists is a folder. Permissions, full disks and other programs are left out."
  },
  {
   "property": "C111",
   "status": "proved",
   "theorems": [
    "Verif.C111_plane",
    "Verif.C111_projection"
   ],
   "note": "For the runs of C91 with one layer of ranks. With Brownian motion it is false (C43), as with bodies exactly upright (C65_upright_false)."
  },
  {
   "property": "C112",
   "status": "partial",
   "theorems": [
    "Verif.C112_fixed",
    "Verif.C112_random",
    "Verif.C112_uniform",
    "Verif.C112_scale",
    "Verif.C112_rounded_partial",
    "Verif.C112_rounding_false"
   ],
   "note": "Proved in exact arithmetic. In rounded arithmetic the upper end of the half-open intervals can be reached (C112_rounding_false); the closed box is proved for monotone roundings."
  },
  {
   "property": "C113",
   "status": "proved",
   "theorems": [
    "Verif.C113_step",
    "Verif.C113_rest",
    "Verif.C113_progress"
   ],
   "note": "For the gradient solver in exact arithmetic, without monolayer (C113_step holds with one too). An example with any number of steps is in Props/Obstacle.lean."
  },
  {
   "property": "C114",
   "status": "proved",
   "theorems": [
    "Verif.C114_start",
    "Verif.C114_constraints",
    "Verif.C114_motion",
    "Verif.C114_positions",
    "Verif.C114_boundaries"
   ],
   "note": "In exact arithmetic, without monolayer and Brownian motion, from equal loads, for solvers that converged with no link at the cap of -10^8 (as in C100). C114_boundaries: which boundaries can be displaced, and which periods carry walls and tubes onto themselves."
  },
  {
   "property": "C115",
   "status": "proved",
   "theorems": [
    "Verif.C115_start",
    "Verif.C115_constraints",
    "Verif.C115_motion",
    "Verif.C115_positions",
    "Verif.C115_orthogonal",
    "Verif.C115_boundaries"
   ],
   "note": "In exact arithmetic, without periodic directions, monolayer and Brownian motion, from turned loads, for solvers that converged with no link at the cap of -10^8 (as in C100). C115_boundaries: spheres, walls and tubes can be turned, mirrored and displaced. C115_orthogonal: the matrices are the rotations and reflections."
  },
  {
   "property": "C116",
   "status": "partial",
   "theorems": [
    "Verif.C116_start",
    "Verif.C116_constraints_partial",
    "Verif.C116_motion_partial",
    "Verif.C116_positions_partial",
    "Verif.C116_false"
   ],
   "note": "Of two rods whose order of ids changes it is required that they are parallel or clearly not parallel (Clear); spheres, and renamings that keep the order, need no condition. Without it the claim is false (C116_false): the answer of DCPQuery for two rods turned by about 2^-40 against each other depends on which one comes first, the contact is at the centre of the short rod or at its end. In exact arithmetic, without monolayer and Brownian motion, for solvers that converged with no link at the cap of -10^8 (as in C100). The example is in Props/RenameRun.lean."
  },
  {
   "property": "C117",
   "status": "partial",
   "theorems": [
    "Verif.C117_constraints",
    "Verif.C117_motion",
    "Verif.C117_positions",
    "Verif.C117_turn_partial",
    "Verif.C117_turn_false",
    "Verif.C117_thermal_partial",
    "Verif.C117_thermal_false"
   ],
   "note": "Constraints, velocities and positions for all factors, in exact arithmetic, without monolayer, for solvers that converged with no link at the cap of -10^8 (as in C100). Orientations only if the angular velocity is above the threshold 2^-23 in both units or below in both, else the claim is false (C117_turn_false). Brownian motion of spheres and immovable bodies, of all angular velocities, and of rods without the random-finite-difference term; with that term it is false for rods (C117_thermal_false): delta = dt * 0.1 is a time that is used as an angle. The example of a step is in Props/UnitsRun.lean."
  },
  {
   "property": "C118",
   "status": "partial",
   "theorems": [
    "Verif.C118_start",
    "Verif.C118_constraints",
    "Verif.C118_motion_partial",
    "Verif.C118_positions_partial",
    "Verif.C118_turn",
    "Verif.C118_thermal"
   ],
   "note": "In exact arithmetic, without monolayer. Constraints exactly; the motion for solvers that converged with no link at the cap of -10^8 (as in C100), up to what the tolerances leave open. The example of a step with two rods is in Props/HeadlessRun.lean."
  },
  {
   "property": "C119",
   "status": "partial",
   "theorems": [
    "Verif.C119_names",
    "Verif.C119_bounded",
    "Verif.C119_history",
    "Verif.C119_full_partial",
    "Verif.C119_refused_false",
    "Verif.C119_reopen_false"
   ],
   "note": "All but the last clause as stated. 'A file with a number is full' is proved for logs that are not rotated when they are opened, and false otherwise: the constructor does not reset the count of characters (C119_reopen_false). When the log cannot be opened the files move on with every message and are lost too soon (C119_refused_false). Writes that fail are not modelled."
  },
  {
   "property": "C120",
   "status": "proved",
   "theorems": [
    "Verif.C120_log",
    "Verif.C120_unique",
    "Verif.C120_repeated",
    "Verif.C120_level_false",
    "Verif.C120_ambiguous_false"
   ],
   "note": "C120_log and C120_unique give the output exactly. C120_level_false and C120_ambiguous_false are the last sentence. The comment in dup_filter_sink.h:17-33 counts one too many (C120_repeated)."
  },
  {
   "property": "C121",
   "status": "proved",
   "theorems": [
    "Verif.C121_report",
    "Verif.C121_clean",
    "Verif.C121_solution_false",
    "Verif.C121_nan_false"
   ],
   "note": "Numbers are finite reals or NaN; infinities and rounding are not modelled. The last sentence is C121_solution_false and C121_nan_false."
  },
  {
   "property": "C122",
   "status": "proved",
   "theorems": [
    "Verif.C122_read",
    "Verif.C122_levels",
    "Verif.C122_ignored",
    "Verif.C122_star_false",
    "Verif.C122_blank_false",
    "Verif.C122_unrecognised_false",
    "Verif.C122_argv_false"
   ],
   "note": "The last two sentences are proved by the theorems that end in _false."
  },
  {
   "property": "C123",
   "status": "proved",
   "theorems": [
    "Verif.C123_made",
    "Verif.C123_stopped",
    "Verif.C123_opened",
    "Verif.C123_file_false"
   ],
   "note": "Paths are relative, names are neither . nor .. and there is one slash between two of them. Rights, full disks and other processes are not modelled. The last sentence is proved by C123_file_false."
  },
  {
   "property": "C124",
   "status": "proved",
   "theorems": [
    "Verif.C124_files",
    "Verif.C124_name",
    "Verif.C124_midnight",
    "Verif.C124_limit",
    "Verif.C124_invalid",
    "Verif.C124_truncate_false",
    "Verif.C124_removed_false",
    "Verif.C124_late_false"
   ],
   "note": "Without daylight saving time; opening, writing and removing do not fail; a message is handled in the span in which it was made. The last two sentences are proved by the theorems that end in _false."
  },
  {
   "property": "C125",
   "status": "proved",
   "theorems": [
    "Verif.C125_pvtp",
    "Verif.C125_pvtu",
    "Verif.C125_headers",
    "Verif.C125_piece",
    "Verif.C125_written",
    "Verif.C125_content",
    "Verif.C125_frames",
    "Verif.C125_quote_false"
   ],
   "note": "The reader has tags, attributes, text and processing instructions; no entities, comments or CDATA. How elements are stored as bytes, and the texts of origin and spacing of an image, are parameters. The last sentence is C125_quote_false."
  },
  {
   "property": "C126",
   "status": "proved",
   "theorems": [
    "Verif.C126_files",
    "Verif.C126_limit",
    "Verif.C126_late_false"
   ],
   "note": "Without daylight saving time; opening, writing and removing do not fail. The last sentence is C126_late_false."
  },
  {
   "property": "C127",
   "status": "proved",
   "theorems": [
    "Verif.C127_sinks",
    "Verif.C127_trace",
    "Verif.C127_plain",
    "Verif.C127_once_false"
   ],
   "note": "One thread; the error handler is not modelled. The last sentence is C127_once_false."
  }
 ]
}