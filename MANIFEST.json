{
 "claims": [
  {
   "property": "C01",
   "status": "proved",
   "theorems": [
    "Serpent.Graph.C01_named_keys",
    "Serpent.Graph.C01_increment_unset",
    "Serpent.Graph.C01_increment_set"
   ],
   "note": "all histories; priority included in C01_named_keys"
  },
  {
   "property": "C02",
   "status": "proved",
   "theorems": [
    "Serpent.Graph.C02_minimum_key_throws",
    "Serpent.Graph.C02_minimum_key_least"
   ],
   "note": ""
  },
  {
   "property": "C03",
   "status": "proved",
   "theorems": [
    "Serpent.Graph.C03_getters",
    "Serpent.Graph.C03_setters_succeed"
   ],
   "note": "histories in which every feedback of optimised values succeeded (a failing feedback is covered by C13)"
  },
  {
   "property": "C04",
   "status": "proved",
   "theorems": [
    "Serpent.Graph.C04_extracted_values_current"
   ],
   "note": ""
  },
  {
   "property": "C05",
   "status": "proved",
   "theorems": [
    "Serpent.Graph.C05_extraction",
    "Serpent.Graph.C05_conservation",
    "Serpent.Graph.C05_nothing_lost"
   ],
   "note": "content and order of every extraction, conservation of factors over all histories"
  },
  {
   "property": "C06",
   "status": "proved",
   "theorems": [
    "Serpent.Graph.C06_all_factors",
    "Serpent.Graph.C06_factors_range",
    "Serpent.Graph.C06_factors_for_key"
   ],
   "note": "StereoOk histories: stereo calls succeeded with increasing keys and maps as frames"
  },
  {
   "property": "C07",
   "status": "partial",
   "theorems": [
    "Serpent.Graph.C07_states",
    "Serpent.Graph.C07_landmarks_partial",
    "Serpent.Graph.C07_fails_no_landmarks",
    "Serpent.Graph.C07_returns_partial",
    "Serpent.Graph.C07_undefined_at_newest",
    "Serpent.Graph.C07_fails_reacquired"
   ],
   "note": "Content of every range that returns proved; with libstdc++ a query throws exactly if its first key is that of a later frame and a landmark starts being tracked twice in the range (C07_returns_partial, C07_fails_reacquired); by the standard a range up to the newest pose reads past the end (C07_undefined_at_newest)."
  },
  {
   "property": "C08",
   "status": "partial",
   "theorems": [
    "Serpent.Graph.C08_extraction",
    "Serpent.Graph.C08_at_most_once",
    "Serpent.Graph.C08_getters_unchanged",
    "Serpent.Graph.C08_returns_partial",
    "Serpent.Graph.C08_undefined_at_newest",
    "Serpent.Graph.C08_fails_reacquired",
    "Serpent.Graph.C08_returns_exactly_partial"
   ],
   "note": "Content, at-most-once and unchanged getters proved; with libstdc++ an extraction returns exactly if every landmark due is due once and was never extracted before (C08_returns_exactly_partial, C08_fails_reacquired); by the standard an extraction up to the newest pose reads past the end (C08_undefined_at_newest)."
  },
  {
   "property": "C09",
   "status": "proved",
   "theorems": [
    "Serpent.Graph.C09_one_factor_per_observation"
   ],
   "note": "StereoOk histories"
  },
  {
   "property": "C10",
   "status": "partial",
   "theorems": [
    "Serpent.Graph.C10_attachment_partial",
    "Serpent.Graph.C10_consecutive_partial",
    "Serpent.Graph.C10_fails_with_gap"
   ],
   "note": "The property as stated fails: after a gap in the keys the observation of the previous frame is attached to a pose with no such observation (C10_fails_with_gap). Proved for consecutive keys, and the exact attachment rule is proved for all."
  },
  {
   "property": "C11",
   "status": "proved",
   "theorems": [
    "Serpent.Graph.C11_query_never_throws",
    "Serpent.Graph.C11_landmarks_at_key",
    "Serpent.Graph.C11_all_landmarks",
    "Serpent.Graph.C11_has_landmark"
   ],
   "note": "StereoOk histories"
  },
  {
   "property": "C12",
   "status": "proved",
   "theorems": [
    "Serpent.Graph.C12_timestamp",
    "Serpent.Graph.C12_time_between",
    "Serpent.Graph.C12_antisymmetric",
    "Serpent.Graph.C12_self",
    "Serpent.Graph.C12_additive"
   ],
   "note": ""
  },
  {
   "property": "C13",
   "status": "proved",
   "theorems": [
    "Serpent.Graph.C13_throws_iff",
    "Serpent.Graph.C13_effect"
   ],
   "note": ""
  },
  {
   "property": "C14",
   "status": "proved",
   "theorems": [
    "Serpent.Graph.C14_optimise"
   ],
   "note": "any optimiser whose estimate is a map; 'the optimiser' is the state after its update call, as in the code"
  },
  {
   "property": "C15",
   "status": "proved",
   "theorems": [
    "Serpent.Graph.C15_no_variable_twice",
    "Serpent.Graph.C15_no_factor_twice",
    "Serpent.Graph.C15_known_variables"
   ],
   "note": "no variable twice: all histories; no factor twice: StereoOk histories; known variables: every optimise succeeded, states set before optimise (Disciplined). C156 shows that the back-end node always meets these hypotheses."
  },
  {
   "property": "C16",
   "status": "partial",
   "theorems": [
    "Serpent.Graph.C16_refused",
    "Serpent.Graph.C16_never_twice",
    "Serpent.Graph.C16_window_step_partial",
    "Serpent.Graph.C16_window_partial",
    "Serpent.Graph.C16_fails_landmark",
    "Serpent.Graph.C16_fails_landmark_kept"
   ],
   "note": "Proved for the state variables and for marginalise above opt_key. The landmark part of the property is false: landmarks are filed under their id (C16_fails_landmark, C16_fails_landmark_kept)."
  },
  {
   "property": "C17",
   "status": "proved",
   "theorems": [
    "Serpent.BackEnd.C17_entries",
    "Serpent.BackEnd.C17_throws"
   ],
   "note": "fromRos: entry per feature with u_L,u_R,mean v; duplicate ids throw"
  },
  {
   "property": "C18",
   "status": "partial",
   "theorems": [
    "Serpent.BackEnd.C18_fails_valid_rejected",
    "Serpent.BackEnd.C18_accepted_partial",
    "Serpent.BackEnd.C18_rejected_partial",
    "Serpent.BackEnd.C18_fails_invalid_accepted",
    "Serpent.BackEnd.C18_fails_positive_definite",
    "Serpent.BackEnd.C18_fails_every_registration",
    "Serpent.BackEnd.C18_fails_least_squares",
    "Serpent.BackEnd.C18_accepted_indefinite_partial"
   ],
   "note": "Code violates it: the validity test is inverted, so every valid covariance is rejected (C18_fails_*); in particular every result that the registration publishes with a positive definite covariance (C18_fails_every_registration), such as all least squares estimates of the linearised models (C18_fails_least_squares). Exactly-one-factor and nothing-on-rejection proved for the messages accepted / rejected."
  },
  {
   "property": "C19",
   "status": "partial",
   "theorems": [
    "Serpent.BackEnd.C19_guarded_partial",
    "Serpent.BackEnd.C19_imu_partial",
    "Serpent.BackEnd.C19_barometer_partial",
    "Serpent.BackEnd.C19_stereo_partial",
    "Serpent.BackEnd.C19_fails_shutdown",
    "Serpent.BackEnd.C19_fails_throw"
   ],
   "note": "the guarded callbacks always release; callbacks with raw lock/unlock release on normal completion; leak on shutdown and on exceptions proved as negations"
  },
  {
   "property": "C20",
   "status": "proved",
   "theorems": [
    "Serpent.BackEnd.C20_schedule",
    "Serpent.BackEnd.C20_keys"
   ],
   "note": "All interleavings of callback sections, every configuration."
  },
  {
   "property": "C21",
   "status": "proved",
   "theorems": [
    "Serpent.BackEnd.C21_bias_chain",
    "Serpent.BackEnd.C21_prior",
    "Serpent.BackEnd.C21_only"
   ],
   "note": "'First' is the first bias that a pressure factor uses; when the first barometer message lags, that is not bias 0 (demo run)."
  },
  {
   "property": "C22",
   "status": "partial",
   "theorems": [
    "Serpent.BackEnd.C22_path",
    "Serpent.BackEnd.C22_path_total",
    "Serpent.BackEnd.C22_changed_partial",
    "Serpent.BackEnd.C22_fails_changed",
    "Serpent.BackEnd.C22_published"
   ],
   "note": "the path shows exactly keys 0..k with own stamps and poses; the changed-poses path is a copy of the whole path (negation proved)"
  },
  {
   "property": "C23",
   "status": "proved",
   "theorems": [
    "Serpent.FrontEnd.C23_state_times",
    "Serpent.FrontEnd.C23_one_per_pointcloud"
   ],
   "note": "For every interleaving of sections (Reach); pointcloud stamps increasing, no assumption on stereo stamps."
  },
  {
   "property": "C24",
   "status": "partial",
   "theorems": [
    "Serpent.FrontEnd.C24_order_partial",
    "Serpent.FrontEnd.C24_value_partial",
    "Serpent.FrontEnd.C24_never_fails_partial",
    "Serpent.FrontEnd.C24_catches_up_partial",
    "Serpent.FrontEnd.C24_fails_no_measurement",
    "Serpent.FrontEnd.C24_fails_left_waiting"
   ],
   "note": "Order, stamps and values proved. Fails: undefined behaviour when a state completes before any barometer message (C24_fails_no_measurement); a state may be left waiting although a later measurement arrived (C24_fails_left_waiting), C24_catches_up_partial says how many further messages are needed."
  },
  {
   "property": "C25",
   "status": "partial",
   "theorems": [
    "Serpent.FrontEnd.C25_intervals",
    "Serpent.FrontEnd.C25_content_partial",
    "Serpent.FrontEnd.C25_failure_iff_partial",
    "Serpent.FrontEnd.C25_fails_reads_past_end"
   ],
   "note": "Content of the arrays proved, the precondition check never fails; but the loop reads past the end of the buffer when no measurement later than the previous state has arrived (C25_fails_reads_past_end; C25_failure_iff_partial gives the exact condition)."
  },
  {
   "property": "C26",
   "status": "proved",
   "theorems": [
    "Serpent.FrontEnd.C26_integration",
    "Serpent.FrontEnd.C26_bias_stamp",
    "Serpent.FrontEnd.C26_never_fails"
   ],
   "note": "For every interleaving of sections."
  },
  {
   "property": "C27",
   "status": "proved",
   "theorems": [
    "Serpent.FrontEnd.C27_interpolated"
   ],
   "note": "For every buffer in stamp order, including equal stamps."
  },
  {
   "property": "C28",
   "status": "partial",
   "theorems": [
    "Serpent.Utils.C28_segments",
    "Serpent.Utils.C28_nothing",
    "Serpent.Utils.C28_total",
    "Serpent.Utils.C28_throws_iff",
    "Serpent.Utils.C28_fails_measurement_at_end",
    "Serpent.Utils.C28_strict_partial",
    "Serpent.Utils.C28_strict_iff",
    "Serpent.Utils.C28_ordered_iff"
   ],
   "note": "The elapsed time, the sequence of held measurements and the refusal conditions are proved for an integrator that accepts any step. With GTSAM's integrator, which refuses a step of zero length, a measurement stamped exactly at the end makes the call throw (C28_fails_measurement_at_end); C28_strict_partial covers every other buffer without equal stamps, and C28_strict_iff and C28_ordered_iff say exactly when the call fails, without and with equal stamps."
  },
  {
   "property": "C29",
   "status": "proved",
   "theorems": [
    "Serpent.EigenExt.C29_matrices",
    "Serpent.Utils.C29_throws_iff",
    "Serpent.Utils.C29_no_ub",
    "Serpent.Utils.C29_line",
    "Serpent.Utils.C29_endpoints",
    "Serpent.Utils.C29_between",
    "Serpent.Utils.C29_monotone",
    "Serpent.Utils.C29_pressure"
   ],
   "note": "Proved for all inputs; see Props/Utilities.lean."
  },
  {
   "property": "C30",
   "status": "proved",
   "theorems": [
    "Serpent.Utils.C30_delete_old"
   ],
   "note": "Proved for all inputs; see Props/Utilities.lean."
  },
  {
   "property": "C31",
   "status": "proved",
   "theorems": [
    "Serpent.Utils.C31_safety",
    "Serpent.Utils.C31_returns"
   ],
   "note": "Safety (the mutex is never locked twice or released when free, the condition held when it returns) and return, for all schedules; see Props/Utilities.lean."
  },
  {
   "property": "C32",
   "status": "proved",
   "theorems": [
    "Serpent.C32_added_iff_moved"
   ],
   "note": "For every reachable state, with real poses: the new cloud is added exactly if the map is empty, the distance exceeds the threshold or the angle of the relative rotation does; assumes unit quaternions in the path and that the stamp is new."
  },
  {
   "property": "C33",
   "status": "partial",
   "theorems": [
    "Serpent.C33_undefined_iff",
    "Serpent.C33_past_frames_partial",
    "Serpent.C33_fails_older_cloud"
   ],
   "note": "Proved whenever the callback is not undefined, with an exact characterisation of the undefined cases (C33_undefined_iff). The full claim is false: C33_fails_older_cloud, and C35_fails_past_frames."
  },
  {
   "property": "C34",
   "status": "partial",
   "theorems": [
    "Serpent.C34_nearby_frames_partial",
    "Serpent.C34_in_order_publishes",
    "Serpent.C34_fails_repeated_stamp"
   ],
   "note": "Proved for clouds with pairwise different stamps, assuming a correct k nearest neighbour search. False if a stamp is repeated: C34_fails_repeated_stamp."
  },
  {
   "property": "C35",
   "status": "partial",
   "theorems": [
    "Serpent.C35_moves_exactly_the_named_frames",
    "Serpent.C35_index_consistent",
    "Serpent.C35_latest_pose",
    "Serpent.C35_nearby_never_undefined",
    "Serpent.C35_fails_past_frames"
   ],
   "note": "Proved for every callback that is not undefined, over all histories; never undefined with NEARBY. With PAST the code dereferences a null pointer as soon as a path names a map frame: C35_fails_past_frames. The frame with the stamp of the cloud itself is not corrected if it is already in the map."
  },
  {
   "property": "C36",
   "status": "proved",
   "theorems": [
    "Serpent.C36_path",
    "Serpent.C36_static_frames",
    "Serpent.C36_moving_frames",
    "Serpent.C36_service",
    "Serpent.C36_node_rigid"
   ],
   "note": "For all trees, by induction over the configuration: path products, inverse and composition for static frames; for moving frames under the hypothesis that the transform listener agrees with the configuration. Node transforms are rigid for every configured quaternion."
  },
  {
   "property": "C37",
   "status": "proved",
   "theorems": [
    "Serpent.C37_construct_iff",
    "Serpent.C37_index",
    "Serpent.C37_index_only"
   ],
   "note": "The constructor succeeds iff names are distinct, ids and aliases are distinct and the tree is usable; otherwise it throws; index complete and exact."
  },
  {
   "property": "C38",
   "status": "proved",
   "theorems": [
    "Serpent.EigenExt.C38_throws_iff",
    "Serpent.EigenExt.C38_entries",
    "Serpent.EigenExt.C38_restore",
    "Serpent.EigenExt.C38_validity",
    "Serpent.EigenExt.C38_variances"
   ],
   "note": "Exact for all sizes and boundaries: when it throws, every entry, round trip, symmetric and positive (semi)definite validity, variances."
  },
  {
   "property": "C39",
   "status": "proved",
   "theorems": [
    "Serpent.EigenExt.C39_adjoint",
    "Serpent.EigenExt.C39_twist",
    "Serpent.EigenExt.C39_symmetric",
    "Serpent.EigenExt.C39_semidefinite",
    "Serpent.EigenExt.C39_definite",
    "Serpent.EigenExt.C39_composition",
    "Serpent.EigenExt.C39_compose_semidefinite",
    "Serpent.EigenExt.C39_compose_assoc",
    "Serpent.EigenExt.C39_marginal",
    "Serpent.EigenExt.C39_chain"
   ],
   "note": "Rigid = orthogonal linear part with determinant one, over any commutative ring; definiteness over the reals. Also: meaning of the adjoint on twists, composition of covariances is positive semidefinite and associative; the composition is what an optimiser reports (C39_marginal: least squared error over the intermediate pose; C39_chain: chains of any length)."
  },
  {
   "property": "C40",
   "status": "proved",
   "theorems": [
    "Serpent.EigenExt.C40_same_motion",
    "Serpent.EigenExt.C40_homomorphism",
    "Serpent.EigenExt.C40_composition",
    "Serpent.EigenExt.C40_overload",
    "Serpent.EigenExt.C40_relative",
    "Serpent.EigenExt.C40_angle"
   ],
   "note": "All rigid transforms over any commutative ring; the frame change is characterised as the unique transform with the same action on points; the angle of the motion does not depend on the frame (C40_angle)."
  },
  {
   "property": "C41",
   "status": "partial",
   "theorems": [
    "Serpent.EigenExt.C41_cross",
    "Serpent.EigenExt.C41_skew",
    "Serpent.EigenExt.C41_recover",
    "Serpent.EigenExt.C41_skew_argument",
    "Serpent.EigenExt.C41_throws_partial",
    "Serpent.EigenExt.C41_fails_accepts"
   ],
   "note": "Cross product, skew symmetry and inversion proved. from_skew_symmetric does not throw for every matrix that is not skew-symmetric: C41_fails_accepts; it throws exactly if a diagonal coefficient is positive (C41_throws_partial)."
  },
  {
   "property": "C42",
   "status": "partial",
   "theorems": [
    "Serpent.EigenExt.C42_symmetric_partial",
    "Serpent.EigenExt.C42_positive_definite",
    "Serpent.EigenExt.C42_valid",
    "Serpent.EigenExt.C42_default",
    "Serpent.EigenExt.C42_symmetric_argument",
    "Serpent.EigenExt.C42_diagonals",
    "Serpent.EigenExt.C42_fails_not_square",
    "Serpent.EigenExt.C42_fails_reads_outside",
    "Serpent.EigenExt.C42_symmetric_tall",
    "Serpent.EigenExt.C42_symmetric_wide",
    "Serpent.EigenExt.C42_symmetric_row"
   ],
   "note": "is_valid_covariance, is_positive_definite and non_zero_diagonals are characterised exactly. is_symmetric is characterised for every shape: as claimed for square matrices (C42_symmetric_partial); with more rows than columns only the square upper part counts (C42_symmetric_tall); with more columns than rows and at least two rows it returns false or reads outside of the matrix (C42_symmetric_wide); with at most one row it returns true (C42_symmetric_row). So the claim is refuted for matrices that are not square (C42_fails_...)."
  },
  {
   "property": "C43",
   "status": "proved",
   "theorems": [
    "Serpent.EigenExt.C43_throws_iff",
    "Serpent.EigenExt.C43_reaches",
    "Serpent.EigenExt.C43_homogeneous",
    "Serpent.EigenExt.C43_recovers",
    "Serpent.EigenExt.C43_half_turn",
    "Serpent.EigenExt.C43_shortest"
   ],
   "note": "All rigid poses; moving with the returned rates for dt from the first pose reaches the second. Eigen's conversion matrix -> quaternion -> angle-axis is modelled and proved right. Rates below half a turn are recovered exactly (C43_recovers), for half a turn up to the sign of the axis (C43_half_turn); the returned rotation is a shortest one (C43_shortest)."
  },
  {
   "property": "C44",
   "status": "partial",
   "theorems": [
    "Serpent.EigenExt.C44_range_elevation_partial",
    "Serpent.EigenExt.C44_reconstruct_partial",
    "Serpent.EigenExt.C44_fails_wrong_azimuth",
    "Serpent.EigenExt.C44_fails_nan",
    "Serpent.EigenExt.C44_fails_axis"
   ],
   "note": "Range and elevation always right; the point can be reconstructed exactly if x = 0 or x^2 + y^2 = 1 (C44_reconstruct_partial). The azimuth is wrong or NaN otherwise and points on the z axis are refused: C44_fails_..."
  },
  {
   "property": "C45",
   "status": "proved",
   "theorems": [
    "Serpent.EigenExt.C45_rotation",
    "Serpent.EigenExt.C45_variance",
    "Serpent.EigenExt.C45_packed"
   ],
   "note": "Matrix law, variance along directions, and the packed representation."
  },
  {
   "property": "C46",
   "status": "proved",
   "theorems": [
    "Serpent.EigenRos.C46_fixed_array",
    "Serpent.EigenRos.C46_fixed_array_back",
    "Serpent.EigenRos.C46_vector",
    "Serpent.EigenRos.C46_vector_throws",
    "Serpent.EigenRos.C46_covariance_message",
    "Serpent.EigenRos.C46_covariance_throws_iff",
    "Serpent.EigenRos.C46_covariance_read",
    "Serpent.EigenRos.C46_point",
    "Serpent.EigenRos.C46_vector3",
    "Serpent.EigenRos.C46_quaternion",
    "Serpent.EigenRos.C46_rotation_matrix",
    "Serpent.EigenRos.C46_pose",
    "Serpent.EigenRos.C46_pose_covariance",
    "Serpent.EigenRos.C46_pose_covariance_back",
    "Serpent.EigenRos.C46_stamped",
    "Serpent.EigenRos.C46_stamped_covariance",
    "Serpent.EigenRos.C46_isometry",
    "Serpent.EigenRos.C46_isometry_rigid",
    "Serpent.EigenRos.C46_matrix4",
    "Serpent.EigenRos.C46_matrix4_action",
    "Serpent.EigenRos.C46_twist",
    "Serpent.EigenRos.C46_twist_covariance",
    "Serpent.EigenRos.C46_twist_covariance_back",
    "Serpent.EigenRos.C46_odometry",
    "Serpent.EigenRos.C46_odometry_back",
    "Serpent.EigenRos.C46_imu",
    "Serpent.EigenRos.C46_separate_covariances"
   ],
   "note": "Arrays of fixed and dynamic length, covariance messages and all message types; both directions where the types allow it. PoseStamped and similar conversions carry only what the target type can hold."
  },
  {
   "property": "C47",
   "status": "partial",
   "theorems": [
    "Serpent.EigenRos.C47_new_message_partial",
    "Serpent.EigenRos.C47_fails_reuse",
    "Serpent.EigenRos.C47_read_partial"
   ],
   "note": "Proved for a fresh message and for reading; false for a reused message object (C47_fails_reuse): the dimensions are appended again and the conversion back throws."
  },
  {
   "property": "C48",
   "status": "proved",
   "theorems": [
    "Serpent.EigenRos.C48_sequence",
    "Serpent.EigenRos.C48_sequence_poses",
    "Serpent.EigenRos.C48_stamped",
    "Serpent.EigenRos.C48_identity",
    "Serpent.EigenRos.C48_odometry",
    "Serpent.EigenRos.C48_node"
   ],
   "note": "Sequences of transforms on isometries, poses, stamped poses and odometry; the combine_transforms node's published odometry and path."
  },
  {
   "property": "C49",
   "status": "partial",
   "theorems": [
    "Serpent.EigenRos.C49_throws_iff",
    "Serpent.EigenRos.C49_values",
    "Serpent.EigenRos.C49_metadata",
    "Serpent.EigenRos.C49_start_partial",
    "Serpent.EigenRos.C49_fails_unknown_orientation",
    "Serpent.EigenRos.C49_end_partial",
    "Serpent.EigenRos.C49_fails_equal_stamps",
    "Serpent.EigenRos.C49_orientation",
    "Serpent.EigenRos.C49_orientation_near",
    "Serpent.EigenRos.C49_change_frame",
    "Serpent.EigenRos.C49_change_frame_world",
    "Serpent.EigenRos.C49_change_back"
   ],
   "note": "Proved: throwing, time stamp, straight line and bounds, metadata, orientation angles, change of frame and back. False at t1 if only the first orientation is known (C49_fails_unknown_orientation), and at t2 for equal time stamps (C49_fails_equal_stamps)."
  },
  {
   "property": "C50",
   "status": "proved",
   "theorems": [
    "Serpent.Stereo.C50_range",
    "Serpent.Stereo.C50_no_overflow",
    "Serpent.Stereo.C50_increasing",
    "Serpent.Stereo.C50_carried_or_new",
    "Serpent.Stereo.C50_never_reappears",
    "Serpent.Stereo.C50_dense",
    "Serpent.Stereo.C50_matcher_sound"
   ],
   "note": "Histories are arbitrary sequences of stereo frames given to a new tracker; the detector, optical flow and matcher are arbitrary functions that may throw (Vision.Sound); C50_matcher_sound shows that the code's matcher with SAD/SSD cost meets the assumptions. 'Immediately preceding frame' is the latest frame that was processed without an exception. C50_dense: ids are given out without gaps. C50_range, C50_no_overflow: bounds for the ids and frame numbers, which the code keeps in int."
  },
  {
   "property": "C51",
   "status": "proved",
   "theorems": [
    "Serpent.Stereo.C51_consistent",
    "Serpent.Stereo.C51_tracked"
   ],
   "note": "Same histories as C50; also proves that no call has undefined behaviour."
  },
  {
   "property": "C52",
   "status": "proved",
   "theorems": [
    "Serpent.Stereo.C52_distance",
    "Serpent.Stereo.C52_geometry",
    "Serpent.Stereo.C52_geometry_throws_iff",
    "Serpent.Stereo.C52_depth",
    "Serpent.Stereo.C52_depth_throws_iff"
   ],
   "note": "Exactness, order, indices and the exact condition for the exception, for the three filters."
  },
  {
   "property": "C53",
   "status": "partial",
   "theorems": [
    "Serpent.Stereo.C53_best",
    "Serpent.Stereo.C53_ratio_partial",
    "Serpent.Stereo.C53_ratio_refused_partial",
    "Serpent.Stereo.C53_total",
    "Serpent.Stereo.C53_indices",
    "Serpent.Stereo.C53_fails_ratio",
    "Serpent.Stereo.C53_fails_ratio_order",
    "Serpent.Stereo.C53_create",
    "Serpent.Stereo.C53_filter_names"
   ],
   "note": "Best candidate (first on ties), totality and configuration are proved for every cost function. The ratio test is wrong: C53_fails_ratio (equal costs are accepted) and C53_fails_ratio_order (result depends on the order). C53_ratio_partial and C53_ratio_refused_partial say what the code does guarantee."
  },
  {
   "property": "C54",
   "status": "proved",
   "theorems": [
    "Serpent.Stereo.C54_lengths",
    "Serpent.Stereo.C54_mutual",
    "Serpent.Stereo.C54_injective",
    "Serpent.Stereo.C54_total"
   ],
   "note": "Mutual best matches, injectivity and lengths for every cost function; totality for SAD and SSD."
  },
  {
   "property": "C55",
   "status": "partial",
   "theorems": [
    "Serpent.Stereo.C55_sad_value",
    "Serpent.Stereo.C55_ssd_value",
    "Serpent.Stereo.C55_sad",
    "Serpent.Stereo.C55_ssd",
    "Serpent.Stereo.C55_type",
    "Serpent.Stereo.C55_fails_uninitialised",
    "Serpent.Stereo.C55_fails_generate",
    "Serpent.Stereo.C55_zmsad_partial",
    "Serpent.Stereo.C55_lssad_partial",
    "Serpent.Stereo.C55_nncc_partial",
    "Serpent.Stereo.C55_generated_partial"
   ],
   "note": "SAD and SSD proved (value, symmetry, zero iff identical, totality inside the images). ZMSAD, LSSAD and NNCC read an uninitialised accumulator (C55_fails_uninitialised); the partial theorems assume that it is zero."
  },
  {
   "property": "C56",
   "status": "partial",
   "theorems": [
    "Serpent.Stereo.C56_backproject",
    "Serpent.Stereo.C56_zero_disparity",
    "Serpent.Stereo.C56_fails_project",
    "Serpent.Stereo.C56_project_partial",
    "Serpent.Stereo.C56_inverse_partial"
   ],
   "note": "Backprojection proved (sees the feature, unique, in front iff positive disparity; throws iff zero disparity). stereo_project reads coefficient 3 of a 3-vector (C56_fails_project); the partial theorems use the depth coordinate instead."
  },
  {
   "property": "C57",
   "status": "partial",
   "theorems": [
    "Serpent.Pcl.C57_filter_max",
    "Serpent.Pcl.C57_filter_max_same_type",
    "Serpent.Pcl.C57_filter_max_named",
    "Serpent.Pcl.C57_unknown_datatype",
    "Serpent.Pcl.C57_fails_in_place",
    "Serpent.Pcl.C57_fails_padded_rows"
   ],
   "note": "Proved for clouds without row padding filtered into another cloud. Refuted: filtering in place empties the cloud (C57_fails_in_place); padded rows are misread."
  },
  {
   "property": "C58",
   "status": "proved",
   "theorems": [
    "Serpent.Pcl.C58_read_after_write",
    "Serpent.Pcl.C58_other_values",
    "Serpent.Pcl.C58_read",
    "Serpent.Pcl.C58_unknown_datatype",
    "Serpent.Pcl.C58_typed",
    "Serpent.Pcl.C58_get_field",
    "Serpent.Pcl.C58_rename",
    "Serpent.Pcl.C58_resize"
   ],
   "note": "Reads after writes, locality of writes, lookup of the first field with a name; for lawful codecs, which the IEEE codec is shown to be."
  },
  {
   "property": "C59",
   "status": "partial",
   "theorems": [
    "Serpent.Pcl.C59_add_fields_partial",
    "Serpent.Pcl.C59_fails_overrun",
    "Serpent.Pcl.C59_fails_padding",
    "Serpent.Pcl.C59_fails_unordered",
    "Serpent.Pcl.C59_fails_no_fields",
    "Serpent.Pcl.C59_add_field_partial"
   ],
   "note": "Proved when the last field ends last and trailing padding fits. Refuted: reads beyond the source with trailing padding (C59_fails_overrun), padding clobbered, overlap when fields are not ordered by offset, undefined behaviour without fields."
  },
  {
   "property": "C60",
   "status": "partial",
   "theorems": [
    "Serpent.Pcl.C60_max",
    "Serpent.Pcl.C60_min",
    "Serpent.Pcl.C60_empty",
    "Serpent.Pcl.C60_unknown_datatype",
    "Serpent.Pcl.C60_sum",
    "Serpent.Pcl.C60_sum_representable",
    "Serpent.Pcl.C60_mean",
    "Serpent.Pcl.C60_variance",
    "Serpent.Pcl.C60_statistics_field",
    "Serpent.Pcl.C60_statistics",
    "Serpent.Pcl.C60_fails_nan",
    "Serpent.Pcl.C60_nan_max",
    "Serpent.Pcl.C60_nan_min",
    "Serpent.Pcl.C60_fails_integer_mean",
    "Serpent.Pcl.C60_fails_elements"
   ],
   "note": "Proved for fields with one element, finite values. Extreme values in the presence of NaN are characterised (C60_nan_max, C60_nan_min: NaN is ignored). Refuted: all values NaN (C60_fails_nan), integer mean wraps (C60_fails_integer_mean), fields of several elements."
  },
  {
   "property": "C61",
   "status": "partial",
   "theorems": [
    "Serpent.Pcl.C61_deskew_partial",
    "Serpent.Pcl.C61_point_at_new_time",
    "Serpent.Pcl.C61_poses",
    "Serpent.Pcl.C61_no_motion",
    "Serpent.Pcl.C61_throws",
    "Serpent.Pcl.C61_fails_times",
    "Serpent.Pcl.C61_fails_before_start"
   ],
   "note": "Proved for new times not before the stamp and skews that turn by less than a half turn and not by a tiny angle: the deskewed point seen from the pose at the new time is the measured point seen from the pose at its time; times reset; other bytes unchanged. Refuted: without relative motion times are not reset (C61_fails_times); a new time before the stamp wraps around (C61_fails_before_start)."
  },
  {
   "property": "C62",
   "status": "partial",
   "theorems": [
    "Serpent.Pcl.C62_cast",
    "Serpent.Pcl.C62_cast_throws",
    "Serpent.Pcl.C62_cast_throws_iff",
    "Serpent.Pcl.C62_scale",
    "Serpent.Pcl.C62_scale_named",
    "Serpent.Pcl.C62_cast_with_scale_partial",
    "Serpent.Pcl.C62_fails_same_type",
    "Serpent.Pcl.C62_fails_scale_and_cast",
    "Serpent.Pcl.C62_fails_elements",
    "Serpent.Pcl.C62_fails_same_type_witness"
   ],
   "note": "cast_field and scale_field proved. Refuted: cast_field_with_scale does not scale when the type is already right; scale_and_cast_field does not change the type; only the first element of a field is changed. The overload of scale_and_cast_field by name calls itself for ever and is not modelled."
  },
  {
   "property": "C63",
   "status": "partial",
   "theorems": [
    "Serpent.Lidar.C63_filter_partial",
    "Serpent.Lidar.C63_fails_none",
    "Serpent.Lidar.C63_throws",
    "Serpent.Lidar.C63_node"
   ],
   "note": "Holds for the whole node for every combination of filters (C63_node). For the class PointcloudFilter alone it fails when no filter is enabled: nothing is published on its output topic (C63_fails_none); with a filter enabled it holds (C63_filter_partial)."
  },
  {
   "property": "C64",
   "status": "proved",
   "theorems": [
    "Serpent.Lidar.C64_order",
    "Serpent.Lidar.C64_pending",
    "Serpent.Lidar.C64_complete",
    "Serpent.Lidar.C64_s2s",
    "Serpent.Lidar.C64_fails_map_waits"
   ],
   "note": "Order, pairing of consecutive scans, completeness and what is pending, for every interleaving. C64_fails_map_waits records that a map callback waits if no scan follows."
  },
  {
   "property": "C65",
   "status": "proved",
   "theorems": [
    "Serpent.Icp.C65_point_to_point",
    "Serpent.Icp.C65_point_to_plane",
    "Serpent.Icp.C65_unique",
    "Serpent.Icp.C65_total_point",
    "Serpent.Icp.C65_total_plane"
   ],
   "note": "Second partial derivatives (Spec/Derivatives.lean) of the squared residual of one correspondence and of the sum over all correspondences, both linearised models."
  },
  {
   "property": "C66",
   "status": "partial",
   "theorems": [
    "Serpent.Icp.C66_censi_nonlinear",
    "Serpent.Icp.C66_fails_nonlinear",
    "Serpent.BackEnd.C66_lls_definite_partial",
    "Serpent.Icp.C66_censi_iid",
    "Serpent.Icp.C66_censi_range",
    "Serpent.Icp.C66_lls",
    "Serpent.Icp.C66_censi_valid",
    "Serpent.Icp.C66_lls_valid_partial",
    "Serpent.Icp.C66_scale",
    "Serpent.Icp.C66_defined",
    "Serpent.Icp.C66_minimiser_linear_point",
    "Serpent.Icp.C66_minimiser_linear_plane",
    "Serpent.Icp.C66_minimiser_point",
    "Serpent.Icp.C66_minimiser_plane",
    "Serpent.Icp.C66_lls_point",
    "Serpent.Icp.C66_lls_plane"
   ],
   "note": "CENSI covariances: proved for all four models, and shown to be the first-order covariance of the local minimiser of the registration's cost, which exists and is unique near the estimate (C66_minimiser_*, C66_lls_*). LLS with the linearised models: proved. LLS with the nonlinear models, which can be configured: the covariance need not be positive semidefinite (C66_fails_nonlinear)."
  },
  {
   "property": "C67",
   "status": "partial",
   "theorems": [
    "Serpent.Icp.C67_bias",
    "Serpent.Icp.C67_partial",
    "Serpent.Icp.C67_fails"
   ],
   "note": "Fails: the measurement noise keeps only the diagonal of u u^T (C67_fails). Proved: the bias part, and the full claim for beams along an axis."
  },
  {
   "property": "C68",
   "status": "partial",
   "theorems": [
    "Serpent.Camera.C68_sequences",
    "Serpent.Camera.C68_identities",
    "Serpent.Camera.C68_relations",
    "Serpent.Camera.C68_angles_partial",
    "Serpent.Camera.C68_fails_angles",
    "Serpent.Camera.C68_fails_projection_matrix",
    "Serpent.Camera.C68_fails_pixel_indices"
   ],
   "note": "Proved for every image, info and sequence of operations: pixels move as the plane does, sizes agree, and the camera matrix projects a moved scene to the moved position in the continuous convention; the identities and group relations hold. Fails: multiples of 45 that are not multiples of 90 are accepted and then nothing is initialised (undefined behaviour); P, R and D are not updated; with the integer pixel-centre convention the principal point is off by one pixel."
  },
  {
   "property": "C69",
   "status": "proved",
   "theorems": [
    "Serpent.Lidar.C69_covariance_method",
    "Serpent.Lidar.C69_covariance_model",
    "Serpent.Lidar.C69_point_method",
    "Serpent.Lidar.C69_unit_vectors",
    "Serpent.Lidar.C69_unit_vectors_unknown",
    "Serpent.Lidar.C69_sensor_type",
    "Serpent.Lidar.C69_registration_method"
   ],
   "note": "Every name is parsed to the value that prints it, and unknown names are refused, for every option."
  },
  {
   "property": "C70",
   "status": "partial",
   "theorems": [
    "Serpent.Repair.C70_messages",
    "Serpent.Repair.C70_stamps_partial",
    "Serpent.Repair.C70_no_zero_partial",
    "Serpent.Repair.C70_fails_topic",
    "Serpent.Repair.C70_fails_interpolated"
   ],
   "note": "Proved for every bag in which no topic is a proper part of the name of the point cloud topic: messages, order, count and everything but stamps are kept (C70_messages needs no hypothesis), non-zero stamps are unchanged, zero stamps are replaced by the previous repaired one plus the period, and none is left if no stamp is negative. Fails: topics are tested with Python's substring test, so that other topics change as well; the stamps are not interpolated as the script says and can go beyond the next one."
  },
  {
   "property": "C71",
   "status": "proved",
   "theorems": [
    "Serpent.Icp.C71_point_to_point",
    "Serpent.Icp.C71_point_to_plane",
    "Serpent.Icp.C71_total_point",
    "Serpent.Icp.C71_total_plane",
    "Serpent.Icp.C71_fails_zero"
   ],
   "note": "All 144 entries of the four generated matrices, for every non-zero rotation vector, translation, pair of points and normal, and their sums over lists of correspondences, with the components computed from a rigid transform. At rotation zero the matrices are not numbers (C71_fails_zero)."
  },
  {
   "property": "C72",
   "status": "partial",
   "theorems": [
    "Serpent.Schedule.C72_no_deadlock_partial",
    "Serpent.Schedule.C72_bounded",
    "Serpent.Schedule.C72_progress_partial",
    "Serpent.Schedule.C72_threads",
    "Serpent.Schedule.C72_any_factors_partial",
    "Serpent.Schedule.C72_fails_threads",
    "Serpent.Schedule.C72_fails_default",
    "Serpent.Schedule.C72_fails_overtaken",
    "Serpent.Schedule.C72_fails_sparse_stereo",
    "Serpent.Schedule.C72_fails_no_factors"
   ],
   "note": "Proved for every schedule with registration factors, enough threads (5 in one node, 4 without stereo; 4/3 per node when split) and enough stereo frames; bounded number of events. False with fewer threads (including the default of 4 in one node), without registration factors (biases overtake the equality test), with two consecutive states without a stereo frame, and without factors."
  },
  {
   "property": "C73",
   "status": "proved",
   "theorems": [
    "Serpent.FrontEnd.C73_same_stamp"
   ],
   "note": "For every interleaving of sections, whenever no pointcloud callback is running."
  },
  {
   "property": "C74",
   "status": "proved",
   "theorems": [
    "Serpent.FrontEnd.C74_odometry"
   ],
   "note": "For every continuation of a state in which biases are known."
  },
  {
   "property": "C75",
   "status": "partial",
   "theorems": [
    "Serpent.FrontEnd.C75_fails_stamp_coincidence",
    "Serpent.FrontEnd.C75_fails_first_sweep",
    "Serpent.FrontEnd.C75_covered_partial"
   ],
   "note": "proved when no IMU stamp coincides with the start or end of the sweep and, for the first sweep, data starts before it; two witnesses of failure otherwise"
  },
  {
   "property": "C76",
   "status": "partial",
   "theorems": [
    "Serpent.FrontEnd.C76_complete_partial",
    "Serpent.FrontEnd.C76_fails_late"
   ],
   "note": "Holds when a measurement not earlier than the new state has arrived before the array is published (C76_complete_partial); fails otherwise (C76_fails_late)."
  },
  {
   "property": "C77",
   "status": "proved",
   "theorems": [
    "Serpent.FrontEnd.C77_waits"
   ],
   "note": "all interleavings of the front end model"
  },
  {
   "property": "C78",
   "status": "proved",
   "theorems": [
    "Serpent.FrontEnd.C78_frame",
    "Serpent.FrontEnd.C78_no_stereo",
    "Serpent.FrontEnd.C78_sent"
   ],
   "note": "frames received so far, stamps cut to microseconds"
  },
  {
   "property": "C79",
   "status": "proved",
   "theorems": [
    "Serpent.FrontEnd.C79_first_state"
   ],
   "note": "with the modelled interpolation"
  },
  {
   "property": "C80",
   "status": "proved",
   "theorems": [
    "Serpent.EigenExt.C80_normalise"
   ],
   "note": "All sizes."
  },
  {
   "property": "C81",
   "status": "partial",
   "theorems": [
    "Serpent.EigenExt.C81_components_partial",
    "Serpent.EigenExt.C81_rotation",
    "Serpent.EigenExt.C81_from_transform",
    "Serpent.EigenExt.C81_fails_zero"
   ],
   "note": "Proved for the constructor from a rigid transform and for every non-zero rotation vector; for the zero vector the matrix is NaN (C81_fails_zero)."
  },
  {
   "property": "C82",
   "status": "partial",
   "theorems": [
    "Serpent.CloudTransform.C82_units",
    "Serpent.CloudTransform.C82_covariances",
    "Serpent.CloudTransform.C82_other_fields_partial",
    "Serpent.CloudTransform.C82_composition",
    "Serpent.CloudTransform.C82_restore",
    "Serpent.CloudTransform.C82_fails_not_copied"
   ],
   "note": "Proved in place and with all fields copied (the default). Without copying, points that are not finite become finite (C82_fails_not_copied)."
  },
  {
   "property": "C83",
   "status": "partial",
   "theorems": [
    "Serpent.C83_global_map_partial",
    "Serpent.C83_pose_graph",
    "Serpent.C83_global_map_points_partial",
    "Serpent.C83_fails_global_flag"
   ],
   "note": "Contents, order, poses and stamps proved for all histories. The parameter enabled_global has no effect (enabled_local is used): C83_fails_global_flag."
  },
  {
   "property": "C84",
   "status": "proved",
   "theorems": [
    "Serpent.C84_local_map_in_lidar_frame",
    "Serpent.C84_no_pose_no_map"
   ],
   "note": "For all reachable states, both extraction methods, rigid transforms; voxel filtering of the local map disabled."
  },
  {
   "property": "C85",
   "status": "partial",
   "theorems": [
    "Serpent.C85_sent_partial",
    "Serpent.C85_fails_moving_frame"
   ],
   "note": "Exact set of transforms and unique children when no frame moves. Refuted for moving frames: they are sent as static transforms, and an unknown moving frame makes the broadcaster throw."
  },
  {
   "property": "C86",
   "status": "proved",
   "theorems": [
    "Serpent.EigenRos.C86_param"
   ],
   "note": "All parameter lists."
  },
  {
   "property": "C87",
   "status": "partial",
   "theorems": [
    "Serpent.Stereo.C87_fails_setters"
   ],
   "note": "The property fails: both setters read a member that the constructor never sets (C87_fails_setters, for all filters and values). There is nothing to prove beyond the failure."
  },
  {
   "property": "C88",
   "status": "partial",
   "theorems": [
    "Serpent.Stereo.C88_scan",
    "Serpent.Stereo.C88_fails_reverse_mean",
    "Serpent.Stereo.C88_fails_flag",
    "Serpent.Stereo.C88_scans_partial"
   ],
   "note": "C88_scan proves the single search for all cost functions; C88_scans_partial the list version for all filters with all windows inside. C88_fails_flag: a keypoint near the border leaves the flag uninitialised. C88_fails_reverse_mean: the reverse search compares with the mean of the forward window."
  },
  {
   "property": "C89",
   "status": "partial",
   "theorems": [
    "Serpent.Stereo.C89_follows_flow",
    "Serpent.Stereo.C89_fails_after_exception"
   ],
   "note": "C89_follows_flow proves soundness and completeness for consecutive frames that are both processed. C89_fails_after_exception: after an exception of the matcher the stored features belong to the failed frame but the stored images to the frame before, so the next flow is applied to the wrong positions."
  },
  {
   "property": "C90",
   "status": "proved",
   "theorems": [
    "Serpent.Stereo.C90_new",
    "Serpent.Stereo.C90_keypoints"
   ],
   "note": "C90_new for every frame; C90_keypoints gives the exact set of keypoints for consecutive processed frames."
  },
  {
   "property": "C91",
   "status": "partial",
   "theorems": [
    "Serpent.Stereo.C91_disparity_partial",
    "Serpent.Stereo.C91_fails_new"
   ],
   "note": "Proved with a stereo distance filter. C91_fails_new: without it the matcher accepts equal columns, and the new match is published."
  },
  {
   "property": "C92",
   "status": "partial",
   "theorems": [
    "Serpent.Stereo.C92_statistics",
    "Serpent.Stereo.C92_tracked",
    "Serpent.Stereo.C92_message",
    "Serpent.Stereo.C92_fails_first"
   ],
   "note": "All values proved for every frame (C92_statistics, C92_tracked), and the message for every frame but the first (C92_message); in the first frame two counts have no value (C92_fails_first)."
  },
  {
   "property": "C93",
   "status": "proved",
   "theorems": [
    "Serpent.Stereo.C93_accepted",
    "Serpent.Stereo.C93_never_reappears",
    "Serpent.Stereo.C93_points"
   ],
   "note": "For histories in which the node has defined behaviour (see C94): statistics neither published nor printed, positive baseline if points are published."
  },
  {
   "property": "C94",
   "status": "partial",
   "theorems": [
    "Serpent.Params.C94_fails_data_sets",
    "Serpent.Stereo.C94_alive_partial",
    "Serpent.Stereo.C94_only_first_partial",
    "Serpent.Stereo.C94_fails_released",
    "Serpent.Stereo.C94_fails_statistics",
    "Serpent.Stereo.C94_fails_printed"
   ],
   "note": "C94_alive_partial: no undefined behaviour if statistics are neither published nor printed and baselines are positive. C94_only_first_partial: with statistics, only the first frame that counts. C94_fails_released: an exception after the images are processed leaves the tracker with images of released messages. C94_fails_statistics, C94_fails_printed: the first statistics, published or only printed, read unset counts. C94_fails_data_sets: all data sets that are shipped print them."
  },
  {
   "property": "C95",
   "status": "partial",
   "theorems": [
    "Serpent.Pcl.C95_fails",
    "Serpent.Pcl.C95_little_endian_partial"
   ],
   "note": "The declared byte order is ignored (C95_fails). What holds on little-endian clouds: C95_little_endian_partial."
  },
  {
   "property": "C96",
   "status": "partial",
   "theorems": [
    "Serpent.Pcl.C96_unit_vectors_partial",
    "Serpent.Pcl.C96_fails_existing"
   ],
   "note": "Proved for layouts in which add_fields is correct and no field of the new names exists. Refuted: an existing ux field of another type (C96_fails_existing)."
  },
  {
   "property": "C97",
   "status": "proved",
   "theorems": [
    "Serpent.Lidar.C97_covariance",
    "Serpent.Lidar.C97_accepted",
    "Serpent.Lidar.C97_fails_other_point_type"
   ],
   "note": "Every accepted combination for the point type of the node. C97_fails_other_point_type: for the point type without unit vectors a configuration is accepted whose first covariance throws."
  },
  {
   "property": "C98",
   "status": "partial",
   "theorems": [
    "Serpent.Lidar.C98_fails_lost_map",
    "Serpent.Lidar.C98_partial"
   ],
   "note": "Holds if every scan has a map and none is lost (C98_partial). Scans and maps are paired by position, so one lost map shifts all later pairs (C98_fails_lost_map)."
  },
  {
   "property": "C99",
   "status": "proved",
   "theorems": [
    "Serpent.Lidar.C99_motion",
    "Serpent.Lidar.C99_covariance",
    "Serpent.Lidar.C99_valid",
    "Serpent.Lidar.C99_infinite",
    "Serpent.Lidar.C99_reorder"
   ],
   "note": "Pose, covariance, order of the components, non-finite covariances and stamp."
  },
  {
   "property": "C100",
   "status": "proved",
   "theorems": [
    "Serpent.Pcl.C100_check_normals",
    "Serpent.Pcl.C100_missing"
   ],
   "note": "The cloud version for pcl::PCLPointCloud2 with float normals."
  },
  {
   "property": "C101",
   "status": "partial",
   "theorems": [
    "Serpent.Lidar.C101_once",
    "Serpent.Lidar.C101_ouster",
    "Serpent.Lidar.C101_custom",
    "Serpent.Lidar.C101_no_range",
    "Serpent.Lidar.C101_refused",
    "Serpent.Lidar.C101_fails_float"
   ],
   "note": "Holds for Ouster clouds with uint32 times and ranges and for custom clouds (C101_once, C101_ouster, C101_custom, C101_refused); an Ouster cloud without ranges is never published (C101_no_range). Fails for Ouster clouds whose times are already float: the scale is skipped (C101_fails_float)."
  },
  {
   "property": "C102",
   "status": "partial",
   "theorems": [
    "Serpent.Icp.C102_direct",
    "Serpent.Icp.C102_reciprocal",
    "Serpent.Icp.C102_points",
    "Serpent.Icp.C102_fails_indices"
   ],
   "note": "Proved for registrations that use all source points and for the reciprocal variant; fails for a proper index list (C102_fails_indices): the index stored is the position in the list."
  },
  {
   "property": "C103",
   "status": "partial",
   "theorems": [
    "Serpent.Camera.C103_operations_partial",
    "Serpent.Camera.C103_fails_order",
    "Serpent.Camera.C103_fails_zero"
   ],
   "note": "Documented operations other than rotations by 0 are accepted and each is applied once, in alphabetical order of their names. Fails: the order written is not kept; a documented rotation by 0 is rejected."
  },
  {
   "property": "C104",
   "status": "proved",
   "theorems": [
    "Serpent.Camera.C104_split",
    "Serpent.Camera.C104_outside",
    "Serpent.Camera.C104_prefix"
   ],
   "note": "For every list of well configured regions and every image."
  },
  {
   "property": "C105",
   "status": "proved",
   "theorems": [
    "Serpent.Camera.C105_publish_info",
    "Serpent.Camera.C105_change_frame"
   ],
   "note": "For every sequence of images."
  },
  {
   "property": "C106",
   "status": "partial",
   "theorems": [
    "Serpent.EigenRos.C106_dead_reckoning_partial",
    "Serpent.EigenRos.C106_durations",
    "Serpent.EigenRos.C106_not_increasing",
    "Serpent.EigenRos.C106_fails_path_frame",
    "Serpent.EigenRos.C106_fails_zero_stamp"
   ],
   "note": "Proved for every history of messages with increasing positive stamps: one odometry and path per message, with time, prediction, covariances, body orientation and path poses. Refuted: the poses in the path are labelled with another frame than the odometry (C106_fails_path_frame), and a first message with stamp 0 is not counted (C106_fails_zero_stamp)."
  },
  {
   "property": "C107",
   "status": "partial",
   "theorems": [
    "Serpent.EigenRos.C107_rotate_partial",
    "Serpent.EigenRos.C107_fails_covariance",
    "Serpent.EigenRos.C107_parameters"
   ],
   "note": "Orientation, frame, time, measurements and parameters proved for every rotation and message. Refuted for the orientation covariance, which is multiplied from one side only (C107_fails_covariance)."
  },
  {
   "property": "C108",
   "status": "partial",
   "theorems": [
    "Serpent.EigenRos.C108_odometry",
    "Serpent.EigenRos.C108_analysis_partial",
    "Serpent.EigenRos.C108_parameters",
    "Serpent.EigenRos.C108_fails_default_frames"
   ],
   "note": "Odometry proved outright; IMU analysis proved for every configuration and message except that with the default frames the second transform goes from a frame to itself (C108_fails_default_frames)."
  },
  {
   "property": "C109",
   "status": "proved",
   "theorems": [
    "Serpent.EigenRos.C109_poses",
    "Serpent.EigenRos.C109_pose_messages",
    "Serpent.EigenRos.C109_pose_messages'",
    "Serpent.EigenRos.C109_biases",
    "Serpent.EigenRos.C109_imu_arrays"
   ],
   "note": "Round trips for isometries, poses, pose messages, biases and arrays of IMU measurements."
  },
  {
   "property": "C110",
   "status": "proved",
   "theorems": [
    "Serpent.Pcl.C110_distances",
    "Serpent.Pcl.C110_refused",
    "Serpent.Pcl.C110_configuration"
   ],
   "note": "For every cloud with positions representable as floats: one output point per source point, same order and position, distance field the rounded distance to the nearest (transformed) target point; empty target and missing parameters refused."
  },
  {
   "property": "C111",
   "status": "partial",
   "theorems": [
    "Serpent.Metrics.C111_metrics_partial",
    "Serpent.Metrics.C111_short_path",
    "Serpent.Metrics.C111_short_covariance",
    "Serpent.Metrics.C111_fails_labels",
    "Serpent.Metrics.C111_fails_angle",
    "Serpent.Metrics.C111_fails_torn"
   ],
   "note": "Proved for every history of completely handled messages; false for the names of the variances (rotation and translation exchanged), for quaternions in opposite halves (2 pi reported for no rotation), and when metrics are computed between the two assignments of the pose callback; a path with fewer than two poses ends the node."
  },
  {
   "property": "C112",
   "status": "partial",
   "theorems": [
    "Serpent.FileConverter.C112_load",
    "Serpent.FileConverter.C112_load_failed",
    "Serpent.FileConverter.C112_latch_partial",
    "Serpent.FileConverter.C112_kept",
    "Serpent.FileConverter.C112_save",
    "Serpent.FileConverter.C112_blocks",
    "Serpent.FileConverter.C112_round_trip",
    "Serpent.FileConverter.C112_fails_latch",
    "Serpent.FileConverter.C112_fails_open3d",
    "Serpent.FileConverter.C112_open3d"
   ],
   "note": "Proved for every history and file format: loading, saving, failures, round trip, blocking. Latching is decided by the first load of a topic, even a failed one (C112_fails_latch); the Open3D variant reports failed saves as done (C112_fails_open3d)."
  },
  {
   "property": "C113",
   "status": "partial",
   "theorems": [
    "Serpent.PointTypes.C113_pose_quaternion",
    "Serpent.PointTypes.C113_pose",
    "Serpent.PointTypes.C113_pose_angle_axis",
    "Serpent.PointTypes.C113_quaternion",
    "Serpent.PointTypes.C113_copy",
    "Serpent.PointTypes.C113_fails_padding",
    "Serpent.PointTypes.C113_covariance",
    "Serpent.PointTypes.C113_covariance_stored",
    "Serpent.PointTypes.C113_outer_product",
    "Serpent.PointTypes.C113_directions",
    "Serpent.PointTypes.C113_check_normals",
    "Serpent.PointTypes.C113_times",
    "Serpent.PointTypes.C113_fails_integer_times"
   ],
   "note": "Round trips of poses, quaternions and covariances, directions, normals and times proved; points made from a pose leave their fourth coordinates indeterminate (C113_fails_padding), and integer times become 0 (C113_fails_integer_times)."
  },
  {
   "property": "C114",
   "status": "partial",
   "theorems": [
    "Serpent.FileConverter.C114_analysis_partial",
    "Serpent.FileConverter.C114_fails_empty"
   ],
   "note": "Proved for every cloud with points and known field types; a cloud without points ends the node (C114_fails_empty)."
  },
  {
   "property": "C115",
   "status": "partial",
   "theorems": [
    "Serpent.Schedule.C115_undisturbed_partial",
    "Serpent.Schedule.C115_stays_partial",
    "Serpent.Schedule.C115_fails"
   ],
   "note": "Holds with registration factors in every schedule; false without them."
  },
  {
   "property": "C116",
   "status": "proved",
   "theorems": [
    "Serpent.Locks.C116_no_lock_deadlock",
    "Serpent.Locks.C116_no_mutex_held_asleep",
    "Serpent.Locks.C116_released",
    "Serpent.Locks.C116_lock_unlock_defined",
    "Serpent.Locks.C116_all_end",
    "Serpent.Locks.C116_finite"
   ],
   "note": "All interleavings of all callbacks of front end, back end, registration and mapping; conditions of waits are left open (any number of rounds)."
  },
  {
   "property": "C117",
   "status": "partial",
   "theorems": [
    "Serpent.Locks.C117_no_race_partial",
    "Serpent.Locks.C117_fails_mutexes_alone"
   ],
   "note": "No race on any member except the results of the optimisation, which the pointcloud callback reads without the mutex; C115 settles those with registration factors."
  },
  {
   "property": "C118",
   "status": "partial",
   "theorems": [
    "Serpent.Locks.C118_shutdown_ends_partial",
    "Serpent.Locks.C118_two_waiting",
    "Serpent.Locks.C118_fails",
    "Serpent.Locks.C118_fails_one_waiting"
   ],
   "note": "Holds when only the pointcloud callback waits (for IMU data or biases) at shutdown. False when two callbacks of the back end wait: the first returns with the graph mutex and the second never ends."
  },
  {
   "property": "C119",
   "status": "proved",
   "theorems": [
    "Serpent.Trajectory.C119_recompute_is_a_rigid_motion",
    "Serpent.Trajectory.C119_recompute_empty",
    "Serpent.Trajectory.C119_recompute_own_first",
    "Serpent.Trajectory.C119_recompute_twice",
    "Serpent.Trajectory.C119_relative_poses",
    "Serpent.Trajectory.C119_relative_poses_unchanged",
    "Serpent.Trajectory.C119_length",
    "Serpent.Trajectory.C119_length_ends",
    "Serpent.Trajectory.C119_length_unchanged"
   ],
   "note": "Poses idealised over the reals; conversions between quaternions and matrices are parameters satisfying Lib.Lawful, for which exampleLib is an instance."
  },
  {
   "property": "C120",
   "status": "partial",
   "theorems": [
    "Serpent.Trajectory.C120_reference_unique",
    "Serpent.Trajectory.C120_interpolation_is_the_reference",
    "Serpent.Trajectory.C120_interpolation_succeeds",
    "Serpent.Trajectory.C120_single_pose_fails",
    "Serpent.Trajectory.C120_pose_errors_use_the_reference",
    "Serpent.Trajectory.C120_pose_errors_succeed",
    "Serpent.Trajectory.C120_vector_errors_use_the_reference",
    "Serpent.Trajectory.C120_vector_errors_succeed",
    "Serpent.Trajectory.C120_fails_out_of_order"
   ],
   "note": "Proved for whatever the scripts return; they stop (an error) for a reference of one pose and for estimates out of order of time (C120_single_pose_fails, C120_fails_out_of_order)."
  },
  {
   "property": "C121",
   "status": "proved",
   "theorems": [
    "Serpent.Trajectory.C121_absolute_errors_zero",
    "Serpent.Trajectory.C121_relative_errors_zero",
    "Serpent.Trajectory.C121_relative_errors_unchanged",
    "Serpent.Trajectory.C121_absolute_norms",
    "Serpent.Trajectory.C121_norms",
    "Serpent.Trajectory.C121_root_mean_square",
    "Serpent.Trajectory.C121_reported_root_mean_square",
    "Serpent.Trajectory.C121_vector_relative_errors",
    "Serpent.Trajectory.C121_report",
    "Serpent.Trajectory.C121_report_relative_errors"
   ],
   "note": "The relative error of vectors has the opposite sign of the absolute one (C121_vector_relative_errors states what it is)."
  },
  {
   "property": "C122",
   "status": "partial",
   "theorems": [
    "Serpent.Trajectory.C122_align_first",
    "Serpent.Trajectory.C122_align_first_succeeds",
    "Serpent.Trajectory.C122_align_trajectory",
    "Serpent.Trajectory.C122_aligned_positions",
    "Serpent.Trajectory.C122_step_bounded",
    "Serpent.Trajectory.C122_correction_bounded",
    "Serpent.Trajectory.C122_gradient_partial",
    "Serpent.Trajectory.C122_first_step_descends",
    "Serpent.Trajectory.C122_translation_step",
    "Serpent.Trajectory.C122_first_rotation_step",
    "Serpent.Trajectory.C122_fails_gradient",
    "Serpent.Trajectory.C122_fails_perfect",
    "Serpent.Trajectory.C122_fails_perfect_two",
    "Serpent.Trajectory.C122_options",
    "Serpent.Trajectory.C122_align_rigid",
    "Serpent.Trajectory.C122_first_error_zero",
    "Serpent.Trajectory.C122_empty_stops"
   ],
   "note": "The gradient with respect to the rotation is right only in the first iteration (C122_gradient_partial, C122_fails_gradient); a perfect trajectory divides zero by zero (C122_fails_perfect, C122_fails_perfect_two); an odometry without a pose in the time of the reference stops the report."
  },
  {
   "property": "C123",
   "status": "partial",
   "theorems": [
    "Serpent.TrackStatistics.C123_frames_tracked",
    "Serpent.TrackStatistics.C123_all_frames",
    "Serpent.TrackStatistics.C123_summary",
    "Serpent.TrackStatistics.C123_bins",
    "Serpent.TrackStatistics.C123_succeeds",
    "Serpent.TrackStatistics.C123_fails_empty_frame"
   ],
   "note": "Proved for frames with at least one match each; a frame without matches stops the script (C123_fails_empty_frame)."
  },
  {
   "property": "C124",
   "status": "proved",
   "theorems": [
    "Serpent.TrackStatistics.C124_fraction",
    "Serpent.TrackStatistics.C124_succeeds",
    "Serpent.TrackStatistics.C124_mean",
    "Serpent.TrackStatistics.C124_share_of_the_tracker"
   ],
   "note": "C124_share_of_the_tracker links the evaluation to the model of the stereo tracker."
  },
  {
   "property": "C125",
   "status": "partial",
   "theorems": [
    "Serpent.Params.C125_only_listed_reads",
    "Serpent.Params.C125_unknown_ignored",
    "Serpent.Params.C125_fails_options_without_effect",
    "Serpent.Params.C125_others_are_read",
    "Serpent.Params.C125_fails_wrong_type",
    "Serpent.Params.C125_rounding",
    "Serpent.Params.C125_fails_zero_for_false",
    "Serpent.Params.C125_modules",
    "Serpent.Params.C125_threads",
    "Serpent.Params.C125_voxel_filter",
    "Serpent.Params.C125_body_filter",
    "Serpent.Params.C125_range_filter",
    "Serpent.Params.C125_random_sample",
    "Serpent.Params.C125_outlier_filter_partial",
    "Serpent.Params.C125_fails_outlier_filter",
    "Serpent.Params.C125_disabled_filters",
    "Serpent.Params.C125_no_filter",
    "Serpent.Params.C125_formatter",
    "Serpent.Params.C125_normals",
    "Serpent.Params.C125_mapping",
    "Serpent.Params.C125_pcl_methods",
    "Serpent.Params.C125_fast_gicp_methods",
    "Serpent.Params.C125_registration_flags",
    "Serpent.Params.C125_registration_covariance",
    "Serpent.Params.C125_fast",
    "Serpent.Params.C125_gftt",
    "Serpent.Params.C125_orb",
    "Serpent.Params.C125_sift_partial",
    "Serpent.Params.C125_fails_sift_opencv5",
    "Serpent.Params.C125_fails_optical_flow",
    "Serpent.Params.C125_optical_flow_partial",
    "Serpent.Params.C125_stereo_matcher",
    "Serpent.Params.C125_stereo_others",
    "Serpent.Params.C125_frontend_flags",
    "Serpent.Params.C125_imu",
    "Serpent.Params.C125_barometer_overwrite",
    "Serpent.Params.C125_initial_state",
    "Serpent.Params.C125_backend_factors",
    "Serpent.Params.C125_marginalisation",
    "Serpent.Params.C125_isam",
    "Serpent.Params.C125_stereo_factors",
    "Serpent.Params.C125_robust_estimator",
    "Serpent.Params.C125_on_crash"
   ],
   "note": "every option of the files is shown to reach its component; fourteen are never read (outlier filter, optical flow, SIFT contrast, GICP tolerances), wrong types are ignored, SIFT is refused with OpenCV 5.0-5.3"
  },
  {
   "property": "C126",
   "status": "partial",
   "theorems": [
    "Serpent.Params.C126_starts_iff_valid",
    "Serpent.Params.C126_front_end_starts",
    "Serpent.Params.C126_back_end_starts",
    "Serpent.Params.C126_stereo_pipeline_starts",
    "Serpent.Params.C126_disabled_modules",
    "Serpent.Params.C126_refused_partial",
    "Serpent.Params.C126_fails_negative_count",
    "Serpent.Params.C126_count_fits",
    "Serpent.Params.C126_fails_robust_type",
    "Serpent.Params.C126_robust_type_partial",
    "Serpent.Params.C126_fails_reference_frame",
    "Serpent.Params.C126_fails_negative_threads",
    "Serpent.Params.C126_shipped_valid",
    "Serpent.Params.C126_shipped_changed"
   ],
   "note": "exact characterisation of the options that every node starts with; unknown robust estimators and reference frames are accepted, a negative point count is undefined behaviour, negative threads wrap; words handed to GTSAM are not modelled"
  },
  {
   "property": "C127",
   "status": "partial",
   "theorems": [
    "Serpent.Params.C127_left_out_partial",
    "Serpent.Params.C127_delete_line_partial",
    "Serpent.Params.C127_delete_all_partial",
    "Serpent.Params.C127_fails_left_out",
    "Serpent.Params.C127_fails_point_covariance",
    "Serpent.Params.C127_fails_no_files",
    "Serpent.Params.C127_iterations_left_out"
   ],
   "note": "for all options but twenty-eight, any set of lines deleted, with any other options; the twenty-eight are shown to differ"
  },
  {
   "property": "C128",
   "status": "proved",
   "theorems": [
    "Serpent.Params.C128_preintegration",
    "Serpent.Params.C128_map_frame",
    "Serpent.Params.C128_enabled",
    "Serpent.Params.C128_unit_vectors",
    "Serpent.Params.C128_voxel_size",
    "Serpent.Params.C128_filters_subscribed",
    "Serpent.Params.C128_split_starts",
    "Serpent.Params.C128_split_same",
    "Serpent.Params.C128_stereo_pipeline_same"
   ],
   "note": "all parameter servers"
  },
  {
   "property": "C129",
   "status": "partial",
   "theorems": [
    "Serpent.Trajectory.C129_fails_only_the_last_counts",
    "Serpent.Trajectory.C129_fails_few_motions",
    "Serpent.Trajectory.C129_counts_must_agree",
    "Serpent.Trajectory.C129_last_error_partial",
    "Serpent.Trajectory.C129_all_or_none_partial",
    "Serpent.Trajectory.C129_fails_fraction",
    "Serpent.Trajectory.C129_fails_axes",
    "Serpent.Trajectory.C129_singular",
    "Serpent.Trajectory.C129_motion_errors",
    "Serpent.Trajectory.C129_motion_errors_succeed",
    "Serpent.Trajectory.C129_script_partial"
   ],
   "note": "proved for uncorrelated covariances whose variances do not decrease from x to z, if all errors are within or none; refuted: only the last motion counts, the errors are scaled along the wrong axes, one or two motions are an error"
  },
  {
   "property": "C130",
   "status": "proved",
   "theorems": [
    "Serpent.Trajectory.C130_bounds",
    "Serpent.Trajectory.C130_bounds_keep_the_reference",
    "Serpent.Trajectory.C130_twist_report",
    "Serpent.Trajectory.C130_twist_report_succeeds",
    "Serpent.Trajectory.C130_twist_data",
    "Serpent.Trajectory.C130_pose_data",
    "Serpent.Trajectory.C130_empty_bounds"
   ],
   "note": "for times of the reference in increasing order; the report is made for samples in order of their times"
  },
  {
   "property": "C131",
   "status": "partial",
   "theorems": [
    "Serpent.Wiring.C131_starts",
    "Serpent.Wiring.C131_connected",
    "Serpent.Wiring.C131_split_connected",
    "Serpent.Wiring.C131_split_same",
    "Serpent.Wiring.C131_advertised_once",
    "Serpent.Wiring.C131_topics",
    "Serpent.Wiring.C131_sensors",
    "Serpent.Wiring.C131_readers",
    "Serpent.Wiring.C131_back_end_no_sensor",
    "Serpent.Wiring.C131_pipeline",
    "Serpent.Wiring.C131_metrics",
    "Serpent.Wiring.C131_analysis",
    "Serpent.Wiring.C131_recorded",
    "Serpent.Wiring.C131_shown_by_rviz",
    "Serpent.Wiring.C131_fails_shown_by_rqt",
    "Serpent.Wiring.C131_fails_range_filter_output"
   ],
   "note": "proved for the system, as one process and as two, for the feature tracker alone, and for the metrics, analysis, recording and RViz topics; refuted: four images shown by rqt are never published, the output argument of the range filter's launch file has no effect"
  },
  {
   "property": "C132",
   "status": "partial",
   "theorems": [
    "Serpent.FrontEnd.C132_failures",
    "Serpent.FrontEnd.C132_fails_early_answer",
    "Serpent.FrontEnd.C132_covariances",
    "Serpent.FrontEnd.C132_overwrite"
   ],
   "note": "complete characterisation of exceptions and undefined behaviour of all sections of the front end (C132_failures), for stamps as assumed in Admissible and sweeps that are not negative; the answer of the back end to a state after the first may arrive before an IMU measurement of that time and is then lost (C132_fails_early_answer)"
  },
  {
   "property": "C133",
   "status": "partial",
   "theorems": [
    "Serpent.Motion.C133_skew_iff",
    "Serpent.Motion.C133_skew_partial",
    "Serpent.Motion.C133_options",
    "Serpent.Motion.C133_off",
    "Serpent.Motion.C133_fails_turned",
    "Serpent.Motion.C133_fails_lever_arm",
    "Serpent.Motion.C133_deskewed_partial",
    "Serpent.Motion.C133_states",
    "Serpent.Motion.C133_fails_first_cloud",
    "Serpent.Motion.C133_straight",
    "Serpent.Robots.C133_fails_snowboard",
    "Serpent.Robots.C133_fails_simulator",
    "Serpent.Robots.C133_ue4_partial"
   ],
   "note": "the skew transform is the motion of the lidar exactly if the motion of the body commutes with the mounting applied twice (C133_skew_iff), because the mounting is used in the wrong direction: wrong for turned (C133_fails_turned) and displaced lidars (C133_fails_lever_arm), among them those of the snowboard and the simulator (C133_fails_snowboard, C133_fails_simulator); complete for the lidar in the body's frame or turned by half a turn (C133_skew_partial, C133_deskewed_partial, C133_ue4_partial); options, states of the sweep; the first cloud's start state is the initial state (C133_fails_first_cloud)"
  },
  {
   "property": "C134",
   "status": "proved",
   "theorems": [
    "Serpent.Motion.C134_guess",
    "Serpent.Motion.C134_result",
    "Serpent.Motion.C134_round_trip",
    "Serpent.Motion.C134_first"
   ],
   "note": "guess, result and round trip for every rigid mounting; message for the first state"
  },
  {
   "property": "C135",
   "status": "partial",
   "theorems": [
    "Serpent.Motion.C135_fields",
    "Serpent.Motion.C135_angular_iff",
    "Serpent.Motion.C135_linear_iff",
    "Serpent.Motion.C135_twist_partial",
    "Serpent.Motion.C135_fails_twist"
   ],
   "note": "all fields are characterised (C135_fields); the bias is added instead of subtracted (C135_angular_iff) and the linear velocity is in the map frame (C135_linear_iff): C135_fails_twist; complete for zero bias and unturned velocity (C135_twist_partial)"
  },
  {
   "property": "C136",
   "status": "partial",
   "theorems": [
    "Serpent.Motion.C136_sent",
    "Serpent.Motion.C136_pose_partial",
    "Serpent.Motion.C136_fails_pose",
    "Serpent.Motion.C136_lookup_fails"
   ],
   "note": "state, broadcast transform and pose are characterised for every body frame (C136_sent); the published pose is the body's (C136_fails_pose), right when the body is base_link (C136_pose_partial)"
  },
  {
   "property": "C137",
   "status": "partial",
   "theorems": [
    "Serpent.Motion.C137_initial_partial",
    "Serpent.Motion.C137_no_orientation",
    "Serpent.Motion.C137_fails_reference",
    "Serpent.Motion.C137_fails_angular",
    "Serpent.Robots.C137_robots_partial"
   ],
   "note": "complete for the reference frames NED and NWU (C137_initial_partial), which the three data sets use (C137_robots_partial); any other value is taken for NWU (C137_fails_reference); the angular velocity stays in the IMU frame (C137_fails_angular); no orientation: C137_no_orientation"
  },
  {
   "property": "C138",
   "status": "proved",
   "theorems": [
    "Serpent.Motion.C138_stored",
    "Serpent.Motion.C138_kept",
    "Serpent.Motion.C138_published",
    "Serpent.Motion.C138_comparable"
   ],
   "note": "for stamps that are not negative"
  },
  {
   "property": "C139",
   "status": "proved",
   "theorems": [
    "Serpent.Motion.C139_fields",
    "Serpent.Motion.C139_round_trip",
    "Serpent.Motion.C139_velocity"
   ],
   "note": "fields, round trip to the front end, velocity from poses"
  },
  {
   "property": "C140",
   "status": "partial",
   "theorems": [
    "Serpent.Motion.C140_check",
    "Serpent.Motion.C140_update",
    "Serpent.Motion.C140_overwrite",
    "Serpent.Motion.C140_gravity",
    "Serpent.Motion.C140_interpolated",
    "Serpent.Motion.C140_fails_unknown_covariance"
   ],
   "note": "complete characterisation of check and update; a driver without covariances is always refused (C140_fails_unknown_covariance); refused covariances stay in place"
  },
  {
   "property": "C141",
   "status": "proved",
   "theorems": [
    "Serpent.Degeneracy.C141_residuals",
    "Serpent.Degeneracy.C141_homogeneous",
    "Serpent.Degeneracy.C141_point",
    "Serpent.Degeneracy.C141_plane",
    "Serpent.Degeneracy.C141_rotation",
    "Serpent.Degeneracy.Files.C141_files"
   ],
   "note": "all formulas of the script that were derived by hand, for all values; the derivatives that Matlab computes itself are derivatives by definition"
  },
  {
   "property": "C142",
   "status": "proved",
   "theorems": [
    "Serpent.Motion.C142_alignment",
    "Serpent.Motion.C142_trajectory",
    "Serpent.Motion.C142_factors",
    "Serpent.Motion.C142_graph",
    "Serpent.Motion.C142_path",
    "Serpent.Motion.C142_map",
    "Serpent.Motion.C142_local_map"
   ],
   "note": "for every mounting and any number of alignments; an alignment of three points not on a line determines the motion (C142_alignment); the optimiser is not part of the chain, but the true poses meet all its registration factors (C142_factors). Deskewing is not part of it: see C133."
  },
  {
   "property": "C143",
   "status": "partial",
   "theorems": [
    "Serpent.BackEnd.C143_backend_partial",
    "Serpent.BackEnd.C143_accepted",
    "Serpent.BackEnd.C143_kept",
    "Serpent.BackEnd.C143_fails_uncalibrated",
    "Serpent.Stereo.C143_filter_partial",
    "Serpent.Stereo.C143_blind"
   ],
   "note": "proved for P[0] not zero; with a zero projection matrix the quotient is not a number and is accepted (C143_fails_uncalibrated), and the feature finder then never publishes a feature (C143_blind)"
  },
  {
   "property": "C144",
   "status": "partial",
   "theorems": [
    "Serpent.Sync.C144_same_stamp",
    "Serpent.Sync.C144_once",
    "Serpent.Sync.C144_increasing",
    "Serpent.Sync.C144_bounded",
    "Serpent.Sync.C144_exactly_partial",
    "Serpent.Sync.C144_all_partial",
    "Serpent.Sync.C144_states_partial",
    "Serpent.Sync.C144_fails_backlog"
   ],
   "note": "The callbacks only ever get messages of one stamp (C144_same_stamp), in order (C144_increasing), no stamp twice (C144_once), for every history. C144_exactly_partial: with topics in order a complete set is handled iff fewer than 10 (the size) later stamps were open when its last message came; C144_all_partial and C144_states_partial: so all are handled if no topic is more than 10 messages ahead. Missing because the code does not have it: sets behind a longer backlog are lost (C144_fails_backlog). The synchroniser is a library (message_filters); its behaviour is modelled."
  },
  {
   "property": "C145",
   "status": "partial",
   "theorems": [
    "Serpent.Schedule.C145_at_most_two",
    "Serpent.Schedule.C145_at_most_one",
    "Serpent.Schedule.C145_never_over_partial",
    "Serpent.Schedule.C145_synchronisers",
    "Serpent.Schedule.C145_outbox_partial",
    "Serpent.Schedule.C145_fails_mapping_behind",
    "Serpent.Schedule.C145_fails_outbox",
    "Serpent.Schedule.C145_lost_cloud",
    "Serpent.Schedule.C145_fails_early_features",
    "Serpent.Sync.C145_in_order",
    "Serpent.Sync.C145_lossless",
    "Serpent.Sync.C145_fails_full"
   ],
   "note": "With registration factors at most two messages wait in every queue of the cycle of states, at most one on five topics, and at most two stamps are open in its synchronisers, in every schedule (C145_at_most_two, C145_at_most_one, C145_never_over_partial, C145_synchronisers), including the queues of the mapping with scan-to-map registration. A queue that is never over its capacity loses nothing (C145_lossless) and always keeps the order (C145_in_order). Missing because the code does not have it: mapping without scan-to-map, pressures (C145_fails_mapping_behind), stereo features before the first state (C145_fails_early_features), and the publishers' queues of one message between two processes (C145_fails_outbox; C145_outbox_partial for the topics that are safe), where the loss of the first cloud stops the system (C145_lost_cloud)."
  },
  {
   "property": "C146",
   "status": "partial",
   "theorems": [
    "Serpent.EigenRos.C146_reflexive_symmetric",
    "Serpent.EigenRos.C146_sign",
    "Serpent.EigenRos.C146_bound",
    "Serpent.EigenRos.C146_zero",
    "Serpent.EigenRos.C146_exact",
    "Serpent.EigenRos.C146_fails_transitive",
    "Serpent.EigenRos.C146_fails_origin"
   ],
   "note": "Everything except the last part is proved (reflexive, symmetric, sign, bounds as an equivalence, zero, stamps). Transitivity and independence of the origin fail: C146_fails_transitive, C146_fails_origin."
  },
  {
   "property": "C147",
   "status": "partial",
   "theorems": [
    "Serpent.EigenRos.C147_recompose",
    "Serpent.EigenRos.C147_unique",
    "Serpent.EigenRos.C147_degrees",
    "Serpent.EigenRos.C147_sign",
    "Serpent.EigenRos.C147_fails_negative_roll",
    "Serpent.EigenRos.C147_fails_unknown"
   ],
   "note": "Recomposition, ranges, uniqueness and sign hold for every unit quaternion; C147_fails_negative_roll and C147_fails_unknown prove the negation of the last two parts. eulerAngles follows Eigen 3.3."
  },
  {
   "property": "C148",
   "status": "partial",
   "theorems": [
    "Serpent.Params.C148_starts",
    "Serpent.Params.C148_threads",
    "Serpent.Params.C148_imu",
    "Serpent.Params.C148_options",
    "Serpent.Robots.C148_mounted",
    "Serpent.Robots.C148_robot",
    "Serpent.Robots.C148_stereo_pairs",
    "Serpent.Robots.C148_fails_left_camera",
    "Serpent.Robots.C148_left_camera_partial",
    "Serpent.Robots.C148_images",
    "Serpent.Robots.C148_ue4_info",
    "Serpent.Robots.C148_no_deadlock"
   ],
   "note": "All parts are proved except that the configured left camera is the left camera, which is false for ue4_missions (C148_fails_left_camera)."
  },
  {
   "property": "C149",
   "status": "partial",
   "theorems": [
    "Serpent.Wiring.C149_snowboard",
    "Serpent.Wiring.C149_ue4",
    "Serpent.Wiring.C149_ue4_defaults",
    "Serpent.Wiring.C149_ue4_one_topic",
    "Serpent.Wiring.C149_simulator",
    "Serpent.Wiring.C149_missions",
    "Serpent.Wiring.C149_snowboard_camera",
    "Serpent.Wiring.C149_ue4_infos",
    "Serpent.Wiring.C149_fails_simulator_camera",
    "Serpent.Wiring.C149_simulator_camera_partial"
   ],
   "note": "The connections are proved for all options, for the single camera of the snowboard that has a calibration, for all separate topics of ue4_missions and for the three cameras of the simulator. False: in the simulator the frame of the left camera stays that of the front camera when another camera is chosen (C149_fails_simulator_camera). image_undistort is another package: its topics are taken from the remappings."
  },
  {
   "property": "C150",
   "status": "proved",
   "theorems": [
    "Serpent.Stereo.C150_region",
    "Serpent.Stereo.C150_fits",
    "Serpent.Stereo.C150_new_features",
    "Serpent.Stereo.C150_does_not_fit",
    "Serpent.Stereo.C150_after_exception",
    "Serpent.Stereo.C150_no_region",
    "Serpent.Stereo.C150_degenerate",
    "Serpent.Params.C150_data_sets"
   ],
   "note": "C150_region (refinement to the tracker of C50, C51 and C89-C92 with the detector restricted to the region), C150_fits (a history without exceptions), C150_new_features (all histories), C150_does_not_fit, C150_after_exception (used on after the exception, the tracker silently finds nothing; the node has ended), C150_no_region, C150_degenerate, C150_data_sets."
  },
  {
   "property": "C151",
   "status": "proved",
   "theorems": [
    "Serpent.Lidar.C151_harmless",
    "Serpent.Lidar.C151_off",
    "Serpent.Lidar.C151_scans",
    "Serpent.Lidar.C151_maps",
    "Serpent.Lidar.C151_no_maps",
    "Serpent.Lidar.C151_advertised"
   ],
   "note": "What align writes into its output cloud and the alignments are parameters; conversions between float and double are exact."
  },
  {
   "property": "C152",
   "status": "partial",
   "theorems": [
    "Serpent.Stereo.C152_harmless_partial",
    "Serpent.Stereo.C152_contents",
    "Serpent.Stereo.C152_flow",
    "Serpent.Stereo.C152_stuck_after_first_exception",
    "Serpent.Stereo.C152_fails_first_exception",
    "Serpent.Stereo.C152_node_partial"
   ],
   "note": "Proved if the first frame with images of equal size is processed (C152_harmless_partial, C152_contents, C152_flow; for the node C152_node_partial). Refuted otherwise: if the first frame throws, its images are not kept, and from then on every frame throws when the flow from the missing previous images is drawn (C152_stuck_after_first_exception, C152_fails_first_exception). OpenCV is assumed to draw whatever is legal (Canvas.Sound); the refutation uses its check for empty images (Canvas.checked)."
  },
  {
   "property": "C153",
   "status": "proved",
   "theorems": [
    "Serpent.BackEnd.C153_points",
    "Serpent.BackEnd.C153_all",
    "Serpent.BackEnd.C153_others"
   ],
   "note": "For histories in which stereo frames are given with increasing keys and features sorted by id, as std::map does."
  },
  {
   "property": "C154",
   "status": "partial",
   "theorems": [
    "Serpent.Graph.C154_kept_partial",
    "Serpent.Graph.C154_fails_sliced",
    "Serpent.Graph.C154_fails_printing",
    "Serpent.BackEnd.C154_node_partial"
   ],
   "note": "The exception for an indeterminate system is kept whenever the states of all factors were set, with and without diagnostics; C154_node_partial shows this for all runs of the back-end node without that hypothesis. The code violates the rest: every other exception is rethrown as a plain std::exception (C154_fails_sliced), and the diagnostics throw themselves if a factor has a state without a value (C154_fails_printing; never in the node by C155)."
  },
  {
   "property": "C155",
   "status": "proved",
   "theorems": [
    "Serpent.BackEnd.C155_calls",
    "Serpent.BackEnd.C155_between",
    "Serpent.BackEnd.C155_stereo"
   ],
   "note": "Over all interleavings of the callbacks of the back-end node. C155_calls: at each call of the optimiser, also one that throws; C155_between: in all states between sections; C155_stereo: shape and camera of stereo factors."
  },
  {
   "property": "C156",
   "status": "proved",
   "theorems": [
    "Serpent.BackEnd.C156_history",
    "Serpent.BackEnd.C156_well_fed",
    "Serpent.BackEnd.C156_once",
    "Serpent.BackEnd.C156_factors",
    "Serpent.BackEnd.C156_node"
   ],
   "note": "C156_node is the statement for the node with any optimiser. It follows from the node with an optimiser that also records the calls it accepted (recorded), of which every run is a run of the node (recorded_reach): C156_history connects the node with the histories of C01-C16 and shows that their hypotheses (all calls succeeded, stereo frames with increasing keys, states set before optimise) are met in the node; C156_well_fed, C156_once, C156_factors."
  },
  {
   "property": "C157",
   "status": "proved",
   "theorems": [
    "Serpent.Graph.C157_histories",
    "Serpent.Graph.C157_needs_order",
    "Serpent.Graph.C157_needs_window",
    "Serpent.BackEnd.C157_node",
    "Serpent.BackEnd.C157_any_optimiser"
   ],
   "note": "C157_node (node with a recording optimiser), C157_any_optimiser (any optimiser, by replay), C157_histories (all histories of graph manager calls under the two stated conditions); C157_needs_order and C157_needs_window show that neither condition can be dropped for direct users. The estimate of the optimiser is assumed to be a sorted map, as gtsam::Values is."
  },
  {
   "property": "C158",
   "status": "proved",
   "theorems": [
    "Serpent.BackEnd.C158_window",
    "Serpent.BackEnd.C158_imu",
    "Serpent.BackEnd.C158_held",
    "Serpent.BackEnd.C158_imu_held",
    "Serpent.BackEnd.C158_bound",
    "Serpent.BackEnd.C158_off"
   ],
   "note": "C158_window (poses handed over and marginalised, marginalisation key), C158_imu, C158_imu_held (velocities and IMU biases with the IMU on, once key 1 has been optimised), C158_held (exactly the last w), C158_bound (never more than w), C158_off. The estimate of the optimiser is assumed to be a sorted map, as gtsam::Values is. Landmarks and barometer biases are not covered: landmarks are selected by id (C16_fails_landmark), barometer biases by their own index."
  }
 ]
}