import Verif.Spec.Parameters

/-!
# The configuration files of the data sets

Taken from the files line by line. Numbers with a decimal point are doubles, others are whole numbers, as for the YAML reader of
`rosparam`. The options of one file are not repeated in another file of the same data set.
-/

namespace Serpent

namespace Params

/-! ### snowboard -/

/-- snowboard/config/serpent/filter.yaml. -/
def snowboardFilter : List (String × Value) := [
  ("first_pointcloud_removal/enabled", .bool true),
  ("time_field_filter/enabled", .bool true),
  ("time_field_filter/max", .double 0.1),
  ("body_filter/enabled", .bool false),
  ("body_filter/min/x", .double 0),
  ("body_filter/min/y", .double 0),
  ("body_filter/min/z", .double 0),
  ("body_filter/max/x", .double 0),
  ("body_filter/max/y", .double 0),
  ("body_filter/max/z", .double 0),
  ("body_filter/translation/x", .double 0),
  ("body_filter/translation/y", .double 0),
  ("body_filter/translation/z", .double 0),
  ("body_filter/rotation/rx", .double 0),
  ("body_filter/rotation/ry", .double 0),
  ("body_filter/rotation/rz", .double 0),
  ("random_sample_filter/enabled", .bool false),
  ("random_sample_filter/sample_size", .int 5000),
  ("random_sample_filter/random_seed", .int 0),
  ("range_filter/enabled", .bool true),
  ("range_filter/min", .double 0.5),
  ("range_filter/max", .int 1000),
  ("statistical_outlier_removal/enabled", .bool false),
  ("statistical_outlier_removal/mean_k", .int 1),
  ("statistical_outlier_removal/stddev_mul_thresh", .double 0),
  ("voxel_grid_filter/enabled", .bool true),
  ("voxel_grid_filter/leaf_size", .double 0.25),
  ("voxel_grid_filter/minimum_points_number_per_voxel", .int 1),
  ("stereo_mask/enabled", .bool true),
  ("stereo_mask/top_left_x", .int 0),
  ("stereo_mask/top_left_y", .int 360),
  ("stereo_mask/height", .int 316),
  ("stereo_mask/width", .int 1577)]

/-- snowboard/config/serpent/format.yaml. -/
def snowboardFormat : List (String × Value) := [
  ("pointcloud_type", .string "OUSTER")]

/-- snowboard/config/serpent/normal_estimation.yaml. -/
def snowboardNormalEstimation : List (String × Value) := [
  ("normal_estimation/threads", .int 1),
  ("normal_estimation/viewpoint/x", .double 0),
  ("normal_estimation/viewpoint/y", .double 0),
  ("normal_estimation/viewpoint/z", .double 0),
  ("normal_estimation/method", .string "knn"),
  ("normal_estimation/k", .int 30),
  ("normal_estimation/radius", .double 1)]

/-- snowboard/config/serpent/tuning.yaml. -/
def snowboardTuning : List (String × Value) := [
  ("prior_noise/position", .double 0.001),
  ("prior_noise/rotation", .double 0.001),
  ("prior_noise/linear_velocity", .double 0.001),
  ("prior_noise/accelerometer_bias", .double 0.005),
  ("prior_noise/gyroscope_bias", .double 0.005),
  ("prior_noise/barometer_bias", .double 0.000001),
  ("imu/reference_frame", .string "NED"),
  ("imu/noise/integration", .double 0.0001),
  ("imu/noise/integration_bias", .double 0.003),
  ("imu/noise/accelerometer_bias", .double 0.0005),
  ("imu/noise/gyroscope_bias", .double 0.000024),
  ("imu/noise/overwrite", .bool true),
  ("imu/noise/accelerometer", .double 0.039),
  ("imu/noise/gyroscope", .double 0.00024),
  ("barometer/noise/barometer_bias", .double 0.000001),
  ("barometer/noise/overwrite", .bool true),
  ("barometer/noise/barometer", .double 0.01),
  ("mdc/translation", .bool true),
  ("mdc/rotation", .bool true),
  ("isam2/optimization", .string "GaussNewton"),
  ("isam2/gauss_newton_params/wildfire_threshold", .double 0.001),
  ("isam2/dogleg_params/initial_delta", .double 1),
  ("isam2/dogleg_params/wildfire_threshold", .double 0.00001),
  ("isam2/dogleg_params/trust_region_adaptation_mode", .string "SEARCH_EACH_ITERATION"),
  ("isam2/dogleg_params/verbose", .bool false),
  ("isam2/relinearize_threshold", .double 0.1),
  ("isam2/relinearize_skip", .int 10),
  ("isam2/enable_relinearization", .bool true),
  ("isam2/evaluate_nonlinear_error", .bool false),
  ("isam2/factorization", .string "CHOLESKY"),
  ("isam2/cache_linearized_factors", .bool true),
  ("optimisation/factors/barometer", .bool false),
  ("optimisation/factors/imu", .bool true),
  ("optimisation/factors/registration", .bool true),
  ("optimisation/factors/stereo", .bool false),
  ("optimisation/marginalisation/enabled", .bool false),
  ("optimisation/marginalisation/window_size", .int 100),
  ("registration_covariance/method", .string "CENSI"),
  ("registration_covariance/model", .string "POINT_TO_PLANE_LINEARISED"),
  ("registration_covariance/constant/rotation", .double 0.0174533),
  ("registration_covariance/constant/translation", .double 0.01),
  ("registration_covariance/point_covariance/method", .string "CONSTANT"),
  ("registration_covariance/point_covariance/constant", .double 0.05),
  ("registration_covariance/point_covariance/range_noise", .double 0.05),
  ("registration_covariance/point_covariance/range_bias_noise", .double 0.02),
  ("s2s/method", .string "fast_gicp"),
  ("s2s/base/maximum_iterations", .int 30),
  ("s2s/base/ransac_iterations", .int 0),
  ("s2s/base/ransac_outlier_rejection_threshold", .double 0.05),
  ("s2s/base/max_correspondence_distance", .double 0.5),
  ("s2s/base/transformation_epsilon", .double 0.001),
  ("s2s/base/transformation_rotation_epsilon", .double 0.0001),
  ("s2s/base/euclidean_fitness_epsilon", .double 0.0001),
  ("s2s/icp/use_reciprocal_correspondences", .bool false),
  ("s2s/gicp/rotation_epsilon", .double 0.002),
  ("s2s/gicp/correspondence_randomness", .int 20),
  ("s2s/gicp/maximum_optimizer_iterations", .int 10),
  ("s2s/gicp/translation_gradient_tolerance", .double 0.01),
  ("s2s/gicp/rotation_gradient_tolerance", .double 0.01),
  ("s2s/lsq/rotation_epsilon", .double 0.002),
  ("s2s/lsq/initial_lambda_factor", .double 0.000000001),
  ("s2s/lsq/debug_print", .bool false),
  ("s2s/fast_gicp/num_threads", .int 8),
  ("s2s/fast_gicp/correspondence_randomness", .int 20),
  ("s2s/fast_gicp/regularization_method", .string "PLANE"),
  ("s2s/fast_vgicp/resolution", .double 1),
  ("s2s/fast_vgicp/voxel_accumulation_mode", .string "ADDITIVE"),
  ("s2s/fast_vgicp/neighbor_search_method", .string "DIRECT1"),
  ("s2s/ndt/resolution", .double 1),
  ("s2s/ndt/step_size", .double 0.1),
  ("s2s/ndt/outlier_ratio", .double 0.55),
  ("s2m/enabled", .bool true),
  ("s2m/method", .string "fast_gicp"),
  ("s2m/base/maximum_iterations", .int 30),
  ("s2m/base/ransac_iterations", .int 0),
  ("s2m/base/ransac_outlier_rejection_threshold", .double 0.05),
  ("s2m/base/max_correspondence_distance", .double 0.5),
  ("s2m/base/transformation_epsilon", .double 0.001),
  ("s2m/base/transformation_rotation_epsilon", .double 0.0001),
  ("s2m/base/euclidean_fitness_epsilon", .double 0.0001),
  ("s2m/icp/use_reciprocal_correspondences", .bool false),
  ("s2m/gicp/rotation_epsilon", .double 0.002),
  ("s2m/gicp/correspondence_randomness", .int 20),
  ("s2m/gicp/maximum_optimizer_iterations", .int 10),
  ("s2m/gicp/translation_gradient_tolerance", .double 0.01),
  ("s2m/gicp/rotation_gradient_tolerance", .double 0.01),
  ("s2m/lsq/rotation_epsilon", .double 0.002),
  ("s2m/lsq/initial_lambda_factor", .double 0.000000001),
  ("s2m/lsq/debug_print", .bool false),
  ("s2m/fast_gicp/num_threads", .int 8),
  ("s2m/fast_gicp/correspondence_randomness", .int 20),
  ("s2m/fast_gicp/regularization_method", .string "PLANE"),
  ("s2m/fast_vgicp/resolution", .double 1),
  ("s2m/fast_vgicp/voxel_accumulation_mode", .string "ADDITIVE"),
  ("s2m/fast_vgicp/neighbor_search_method", .string "DIRECT1"),
  ("s2m/ndt/resolution", .double 1),
  ("s2m/ndt/step_size", .double 0.1),
  ("s2m/ndt/outlier_ratio", .double 0.55),
  ("map_frame_id", .string "map"),
  ("mapping/frame_extraction_method", .string "NEARBY"),
  ("mapping/frame_extraction_number", .int 20),
  ("mapping/distance_threshold", .double 0.1),
  ("mapping/rotation_threshold", .double 0.05235987755982988),
  ("mapping/voxel_grid_filter/enabled_local", .bool true),
  ("mapping/voxel_grid_filter/enabled_global", .bool true),
  ("mapping/voxel_grid_filter/leaf_size", .double 0.05),
  ("mapping/voxel_grid_filter/minimum_points_number_per_voxel", .int 1),
  ("stereo_factors/noise/left_x", .double 5),
  ("stereo_factors/noise/right_x", .double 5),
  ("stereo_factors/noise/y", .double 12.5),
  ("stereo_factors/robust/enabled", .bool true),
  ("stereo_factors/robust/type", .string "huber"),
  ("stereo_factors/robust/cauchy/k", .double 0.1),
  ("stereo_factors/robust/cauchy/reweight_scheme", .string "BLOCK"),
  ("stereo_factors/robust/dcs/c", .double 1),
  ("stereo_factors/robust/dcs/reweight_scheme", .string "BLOCK"),
  ("stereo_factors/robust/fair/c", .double 1.3998),
  ("stereo_factors/robust/fair/reweight_scheme", .string "BLOCK"),
  ("stereo_factors/robust/geman_mcclure/c", .double 1),
  ("stereo_factors/robust/geman_mcclure/reweight_scheme", .string "BLOCK"),
  ("stereo_factors/robust/huber/k", .double 1.345),
  ("stereo_factors/robust/huber/reweight_scheme", .string "BLOCK"),
  ("stereo_factors/robust/l2_with_dead_zone/k", .double 1),
  ("stereo_factors/robust/l2_with_dead_zone/reweight_scheme", .string "BLOCK"),
  ("stereo_factors/robust/tukey/c", .double 4.6851),
  ("stereo_factors/robust/tukey/reweight_scheme", .string "BLOCK"),
  ("stereo_factors/robust/welsch/c", .double 2.9846),
  ("stereo_factors/robust/welsch/reweight_scheme", .string "BLOCK"),
  ("stereo_factors/left_cam_frame", .string "left_stereo_left_cam"),
  ("stereo_tracking/only_graph_frames", .bool true),
  ("stereo_tracking/new_feature_dist_threshold", .double 5),
  ("stereo_tracking/detector/type", .string "GFTT"),
  ("stereo_tracking/detector/fast/threshold", .int 10),
  ("stereo_tracking/detector/fast/nonmax_suppression", .bool true),
  ("stereo_tracking/detector/fast/type", .string "TYPE_9_16"),
  ("stereo_tracking/detector/gftt/max_corners", .int 100),
  ("stereo_tracking/detector/gftt/quality_level", .double 0.01),
  ("stereo_tracking/detector/gftt/min_distance", .double 1),
  ("stereo_tracking/detector/gftt/block_size", .int 3),
  ("stereo_tracking/detector/gftt/use_harris_detector", .bool false),
  ("stereo_tracking/detector/gftt/k", .double 0.04),
  ("stereo_tracking/detector/orb/num_features", .int 100),
  ("stereo_tracking/detector/orb/scale_factor", .double 1.2),
  ("stereo_tracking/detector/orb/num_levels", .int 8),
  ("stereo_tracking/detector/orb/edge_threshold", .int 31),
  ("stereo_tracking/detector/orb/first_level", .int 0),
  ("stereo_tracking/detector/orb/wta_k", .int 2),
  ("stereo_tracking/detector/orb/score_type", .string "HARRIS_SCORE"),
  ("stereo_tracking/detector/orb/patch_size", .int 31),
  ("stereo_tracking/detector/orb/fast_threshold", .int 20),
  ("stereo_tracking/detector/sift/num_features", .int 100),
  ("stereo_tracking/detector/sift/num_octave_layers", .int 3),
  ("stereo_tracking/detector/sift/contrast_threshold", .double 0.04),
  ("stereo_tracking/detector/sift/edge_threshold", .double 10),
  ("stereo_tracking/detector/sift/sigma", .double 1.6),
  ("stereo_tracking/stereo_match_filter/vertical_pixel_threshold", .double 25),
  ("stereo_tracking/stereo_distance_filter/enabled", .bool true),
  ("stereo_tracking/stereo_distance_filter/max_distance", .double 15),
  ("stereo_tracking/stereo_distance_filter/min_distance", .double 1),
  ("stereo_tracking/sparse_optical_flow/type", .string "PyrLK"),
  ("stereo_tracking/sparse_optical_flow/pyrlk/win_size", .ints [21, 21]),
  ("stereo_tracking/sparse_optical_flow/pyrlk/max_level", .int 3),
  ("stereo_tracking/sparse_optical_flow/pyrlk/term_criteria/type", .string "COUNT+EPS"),
  ("stereo_tracking/sparse_optical_flow/pyrlk/term_criteria/max_count", .int 30),
  ("stereo_tracking/sparse_optical_flow/pyrlk/term_criteria/epsilon", .double 0.01),
  ("stereo_tracking/sparse_optical_flow/pyrlk/flags", .int 0),
  ("stereo_tracking/sparse_optical_flow/pyrlk/min_eig_threshold", .double 0.0001),
  ("stereo_tracking/stereo_keypoint_matcher/cost_function", .string "SSD"),
  ("stereo_tracking/stereo_keypoint_matcher/window_size/width", .int 7),
  ("stereo_tracking/stereo_keypoint_matcher/window_size/height", .int 7),
  ("stereo_tracking/stereo_keypoint_matcher/cost_threshold", .double 1000000000),
  ("stereo_tracking/stereo_keypoint_matcher/vertical_pixel_threshold", .double 25),
  ("stereo_tracking/stereo_keypoint_matcher/matching_filter", .string "RATIO_TEST"),
  ("stereo_tracking/stereo_keypoint_matcher/ratio", .double 0.1)]

/-- snowboard/config/serpent/debug.yaml. -/
def snowboardDebug : List (String × Value) := [
  ("debug/registration/check_normals", .bool false),
  ("debug/registration/publish_clouds", .bool true),
  ("debug/registration/publish_clouds_alt", .bool false),
  ("debug/stereo/print_stats", .bool true),
  ("debug/stereo/publish_stats", .bool true),
  ("debug/stereo/publish_intermediate_results", .bool true),
  ("debug/stereo/publish_points", .bool false),
  ("debug/stereo/rich_keypoints", .bool false),
  ("debug/stereo/rich_matches", .bool false),
  ("debug/optimisation/publish_stereo_points", .bool false),
  ("debug/optimisation/on_crash/save", .bool true),
  ("debug/optimisation/on_crash/print", .bool true),
  ("debug/optimisation/on_crash/print_options/verbose", .bool false),
  ("debug/optimisation/on_crash/print_options/min_error", .double 10)]

/-- snowboard/config/serpent/mission/*.yaml. -/
def snowboardMissions : List (String × List (String × Value)) := [
  ("ice_rink", [
    ("gravity", .double 9.78),
    ("pose/position/x", .double 0),
    ("pose/position/y", .double 0),
    ("pose/position/z", .double 0)]),
  ("mammoth_outdoor", [
    ("gravity", .double 9.78),
    ("pose/position/x", .double 0),
    ("pose/position/y", .double 0),
    ("pose/position/z", .double 0)]),
  ("tunnel", [
    ("gravity", .double 9.78),
    ("pose/position/x", .double 0),
    ("pose/position/y", .double 0),
    ("pose/position/z", .double 0)])]

/-! ### ue4_missions -/

/-- ue4_missions/config/serpent/filter.yaml. -/
def ue4Filter : List (String × Value) := [
  ("first_pointcloud_removal/enabled", .bool false),
  ("time_field_filter/enabled", .bool false),
  ("time_field_filter/max", .double 0.1),
  ("body_filter/enabled", .bool false),
  ("body_filter/min/x", .double 0),
  ("body_filter/min/y", .double 0),
  ("body_filter/min/z", .double 0),
  ("body_filter/max/x", .double 0),
  ("body_filter/max/y", .double 0),
  ("body_filter/max/z", .double 0),
  ("body_filter/translation/x", .double 0),
  ("body_filter/translation/y", .double 0),
  ("body_filter/translation/z", .double 0),
  ("body_filter/rotation/rx", .double 0),
  ("body_filter/rotation/ry", .double 0),
  ("body_filter/rotation/rz", .double 0),
  ("random_sample_filter/enabled", .bool false),
  ("random_sample_filter/sample_size", .int 5000),
  ("random_sample_filter/random_seed", .int 0),
  ("range_filter/enabled", .bool false),
  ("range_filter/min", .double 0),
  ("range_filter/max", .double 1000000000000),
  ("statistical_outlier_removal/enabled", .bool false),
  ("statistical_outlier_removal/mean_k", .int 1),
  ("statistical_outlier_removal/stddev_mul_thresh", .double 0),
  ("voxel_grid_filter/enabled", .bool true),
  ("voxel_grid_filter/leaf_size", .double 0.1),
  ("voxel_grid_filter/minimum_points_number_per_voxel", .int 1),
  ("stereo_mask/enabled", .bool true),
  ("stereo_mask/top_left_x", .int 0),
  ("stereo_mask/top_left_y", .int 360),
  ("stereo_mask/height", .int 360),
  ("stereo_mask/width", .int 720)]

/-- ue4_missions/config/serpent/format.yaml. -/
def ue4Format : List (String × Value) := [
  ("pointcloud_type", .string "CUSTOM")]

/-- ue4_missions/config/serpent/normal_estimation.yaml. -/
def ue4NormalEstimation : List (String × Value) := [
  ("normal_estimation/threads", .int 1),
  ("normal_estimation/viewpoint/x", .double 0),
  ("normal_estimation/viewpoint/y", .double 0),
  ("normal_estimation/viewpoint/z", .double 0),
  ("normal_estimation/method", .string "knn"),
  ("normal_estimation/k", .int 30),
  ("normal_estimation/radius", .double 1)]

/-- ue4_missions/config/serpent/tuning.yaml. -/
def ue4Tuning : List (String × Value) := [
  ("prior_noise/position", .double 0.001),
  ("prior_noise/rotation", .double 0.001),
  ("prior_noise/linear_velocity", .double 0.001),
  ("prior_noise/accelerometer_bias", .double 0.0001),
  ("prior_noise/gyroscope_bias", .double 0.0001),
  ("prior_noise/barometer_bias", .double 0.000001),
  ("imu/reference_frame", .string "NWU"),
  ("imu/noise/integration", .double 0.0001),
  ("imu/noise/integration_bias", .double 0.003),
  ("imu/noise/accelerometer_bias", .double 0.00433),
  ("imu/noise/gyroscope_bias", .double 0.0000266),
  ("imu/noise/overwrite", .bool true),
  ("imu/noise/accelerometer", .double 0.00186),
  ("imu/noise/gyroscope", .double 0.000187),
  ("barometer/noise/barometer_bias", .double 0.000001),
  ("barometer/noise/overwrite", .bool true),
  ("barometer/noise/barometer", .double 0.01),
  ("mdc/translation", .bool true),
  ("mdc/rotation", .bool true),
  ("isam2/optimization", .string "GaussNewton"),
  ("isam2/gauss_newton_params/wildfire_threshold", .double 0.001),
  ("isam2/dogleg_params/initial_delta", .double 1),
  ("isam2/dogleg_params/wildfire_threshold", .double 0.00001),
  ("isam2/dogleg_params/trust_region_adaptation_mode", .string "SEARCH_EACH_ITERATION"),
  ("isam2/dogleg_params/verbose", .bool false),
  ("isam2/relinearize_threshold", .double 0.1),
  ("isam2/relinearize_skip", .int 10),
  ("isam2/enable_relinearization", .bool true),
  ("isam2/evaluate_nonlinear_error", .bool false),
  ("isam2/factorization", .string "CHOLESKY"),
  ("isam2/cache_linearized_factors", .bool true),
  ("optimisation/factors/barometer", .bool false),
  ("optimisation/factors/imu", .bool true),
  ("optimisation/factors/registration", .bool true),
  ("optimisation/factors/stereo", .bool false),
  ("optimisation/marginalisation/enabled", .bool false),
  ("optimisation/marginalisation/window_size", .int 100),
  ("registration_covariance/method", .string "CENSI"),
  ("registration_covariance/model", .string "POINT_TO_PLANE_LINEARISED"),
  ("registration_covariance/constant/rotation", .double 0.0174533),
  ("registration_covariance/constant/translation", .double 0.01),
  ("registration_covariance/point_covariance/method", .string "CONSTANT"),
  ("registration_covariance/point_covariance/constant", .double 0.05),
  ("registration_covariance/point_covariance/range_noise", .double 0.05),
  ("registration_covariance/point_covariance/range_bias_noise", .double 0.02),
  ("s2s/method", .string "fast_gicp"),
  ("s2s/base/maximum_iterations", .int 30),
  ("s2s/base/ransac_iterations", .int 0),
  ("s2s/base/ransac_outlier_rejection_threshold", .double 0.05),
  ("s2s/base/max_correspondence_distance", .double 0.5),
  ("s2s/base/transformation_epsilon", .double 0.001),
  ("s2s/base/transformation_rotation_epsilon", .double 0.0001),
  ("s2s/base/euclidean_fitness_epsilon", .double 0.0001),
  ("s2s/icp/use_reciprocal_correspondences", .bool false),
  ("s2s/gicp/rotation_epsilon", .double 0.002),
  ("s2s/gicp/correspondence_randomness", .int 20),
  ("s2s/gicp/maximum_optimizer_iterations", .int 10),
  ("s2s/gicp/translation_gradient_tolerance", .double 0.01),
  ("s2s/gicp/rotation_gradient_tolerance", .double 0.01),
  ("s2s/lsq/rotation_epsilon", .double 0.002),
  ("s2s/lsq/initial_lambda_factor", .double 0.000000001),
  ("s2s/lsq/debug_print", .bool false),
  ("s2s/fast_gicp/num_threads", .int 8),
  ("s2s/fast_gicp/correspondence_randomness", .int 20),
  ("s2s/fast_gicp/regularization_method", .string "PLANE"),
  ("s2s/fast_vgicp/resolution", .double 1),
  ("s2s/fast_vgicp/voxel_accumulation_mode", .string "ADDITIVE"),
  ("s2s/fast_vgicp/neighbor_search_method", .string "DIRECT1"),
  ("s2s/ndt/resolution", .double 1),
  ("s2s/ndt/step_size", .double 0.1),
  ("s2s/ndt/outlier_ratio", .double 0.55),
  ("s2m/enabled", .bool true),
  ("s2m/method", .string "fast_gicp"),
  ("s2m/base/maximum_iterations", .int 30),
  ("s2m/base/ransac_iterations", .int 0),
  ("s2m/base/ransac_outlier_rejection_threshold", .double 0.05),
  ("s2m/base/max_correspondence_distance", .double 0.5),
  ("s2m/base/transformation_epsilon", .double 0.001),
  ("s2m/base/transformation_rotation_epsilon", .double 0.0001),
  ("s2m/base/euclidean_fitness_epsilon", .double 0.0001),
  ("s2m/icp/use_reciprocal_correspondences", .bool false),
  ("s2m/gicp/rotation_epsilon", .double 0.002),
  ("s2m/gicp/correspondence_randomness", .int 20),
  ("s2m/gicp/maximum_optimizer_iterations", .int 10),
  ("s2m/gicp/translation_gradient_tolerance", .double 0.01),
  ("s2m/gicp/rotation_gradient_tolerance", .double 0.01),
  ("s2m/lsq/rotation_epsilon", .double 0.002),
  ("s2m/lsq/initial_lambda_factor", .double 0.000000001),
  ("s2m/lsq/debug_print", .bool false),
  ("s2m/fast_gicp/num_threads", .int 8),
  ("s2m/fast_gicp/correspondence_randomness", .int 20),
  ("s2m/fast_gicp/regularization_method", .string "PLANE"),
  ("s2m/fast_vgicp/resolution", .double 1),
  ("s2m/fast_vgicp/voxel_accumulation_mode", .string "ADDITIVE"),
  ("s2m/fast_vgicp/neighbor_search_method", .string "DIRECT1"),
  ("s2m/ndt/resolution", .double 1),
  ("s2m/ndt/step_size", .double 0.1),
  ("s2m/ndt/outlier_ratio", .double 0.55),
  ("map_frame_id", .string "map"),
  ("mapping/frame_extraction_method", .string "NEARBY"),
  ("mapping/frame_extraction_number", .int 20),
  ("mapping/distance_threshold", .double 0.1),
  ("mapping/rotation_threshold", .double 0.05235987755982988),
  ("mapping/voxel_grid_filter/enabled_local", .bool true),
  ("mapping/voxel_grid_filter/enabled_global", .bool true),
  ("mapping/voxel_grid_filter/leaf_size", .double 0.05),
  ("mapping/voxel_grid_filter/minimum_points_number_per_voxel", .int 1),
  ("stereo_factors/noise/left_x", .double 5),
  ("stereo_factors/noise/right_x", .double 5),
  ("stereo_factors/noise/y", .double 5),
  ("stereo_factors/robust/enabled", .bool true),
  ("stereo_factors/robust/type", .string "huber"),
  ("stereo_factors/robust/cauchy/k", .double 0.1),
  ("stereo_factors/robust/cauchy/reweight_scheme", .string "BLOCK"),
  ("stereo_factors/robust/dcs/c", .double 1),
  ("stereo_factors/robust/dcs/reweight_scheme", .string "BLOCK"),
  ("stereo_factors/robust/fair/c", .double 1.3998),
  ("stereo_factors/robust/fair/reweight_scheme", .string "BLOCK"),
  ("stereo_factors/robust/geman_mcclure/c", .double 1),
  ("stereo_factors/robust/geman_mcclure/reweight_scheme", .string "BLOCK"),
  ("stereo_factors/robust/huber/k", .double 1.345),
  ("stereo_factors/robust/huber/reweight_scheme", .string "BLOCK"),
  ("stereo_factors/robust/l2_with_dead_zone/k", .double 1),
  ("stereo_factors/robust/l2_with_dead_zone/reweight_scheme", .string "BLOCK"),
  ("stereo_factors/robust/tukey/c", .double 4.6851),
  ("stereo_factors/robust/tukey/reweight_scheme", .string "BLOCK"),
  ("stereo_factors/robust/welsch/c", .double 2.9846),
  ("stereo_factors/robust/welsch/reweight_scheme", .string "BLOCK"),
  ("stereo_factors/left_cam_frame", .string "camera"),
  ("stereo_tracking/only_graph_frames", .bool true),
  ("stereo_tracking/new_feature_dist_threshold", .double 5),
  ("stereo_tracking/detector/type", .string "FAST"),
  ("stereo_tracking/detector/fast/threshold", .int 25),
  ("stereo_tracking/detector/fast/nonmax_suppression", .bool true),
  ("stereo_tracking/detector/fast/type", .string "TYPE_9_16"),
  ("stereo_tracking/detector/gftt/max_corners", .int 100),
  ("stereo_tracking/detector/gftt/quality_level", .double 0.01),
  ("stereo_tracking/detector/gftt/min_distance", .double 1),
  ("stereo_tracking/detector/gftt/block_size", .int 3),
  ("stereo_tracking/detector/gftt/use_harris_detector", .bool false),
  ("stereo_tracking/detector/gftt/k", .double 0.04),
  ("stereo_tracking/detector/orb/num_features", .int 500),
  ("stereo_tracking/detector/orb/scale_factor", .double 1.2),
  ("stereo_tracking/detector/orb/num_levels", .int 8),
  ("stereo_tracking/detector/orb/edge_threshold", .int 31),
  ("stereo_tracking/detector/orb/first_level", .int 0),
  ("stereo_tracking/detector/orb/wta_k", .int 2),
  ("stereo_tracking/detector/orb/score_type", .string "HARRIS_SCORE"),
  ("stereo_tracking/detector/orb/patch_size", .int 31),
  ("stereo_tracking/detector/orb/fast_threshold", .int 20),
  ("stereo_tracking/detector/sift/num_features", .int 100),
  ("stereo_tracking/detector/sift/num_octave_layers", .int 3),
  ("stereo_tracking/detector/sift/contrast_threshold", .double 0.04),
  ("stereo_tracking/detector/sift/edge_threshold", .double 10),
  ("stereo_tracking/detector/sift/sigma", .double 1.6),
  ("stereo_tracking/stereo_match_filter/vertical_pixel_threshold", .double 5),
  ("stereo_tracking/stereo_distance_filter/enabled", .bool true),
  ("stereo_tracking/stereo_distance_filter/max_distance", .double 15),
  ("stereo_tracking/stereo_distance_filter/min_distance", .double 1),
  ("stereo_tracking/sparse_optical_flow/type", .string "PyrLK"),
  ("stereo_tracking/sparse_optical_flow/pyrlk/win_size", .ints [21, 21]),
  ("stereo_tracking/sparse_optical_flow/pyrlk/max_level", .int 3),
  ("stereo_tracking/sparse_optical_flow/pyrlk/term_criteria/type", .string "COUNT+EPS"),
  ("stereo_tracking/sparse_optical_flow/pyrlk/term_criteria/max_count", .int 30),
  ("stereo_tracking/sparse_optical_flow/pyrlk/term_criteria/epsilon", .double 0.01),
  ("stereo_tracking/sparse_optical_flow/pyrlk/flags", .int 0),
  ("stereo_tracking/sparse_optical_flow/pyrlk/min_eig_threshold", .double 0.0001),
  ("stereo_tracking/stereo_keypoint_matcher/cost_function", .string "SSD"),
  ("stereo_tracking/stereo_keypoint_matcher/window_size/width", .int 7),
  ("stereo_tracking/stereo_keypoint_matcher/window_size/height", .int 7),
  ("stereo_tracking/stereo_keypoint_matcher/cost_threshold", .double 64),
  ("stereo_tracking/stereo_keypoint_matcher/vertical_pixel_threshold", .double 5),
  ("stereo_tracking/stereo_keypoint_matcher/matching_filter", .string "RATIO_TEST"),
  ("stereo_tracking/stereo_keypoint_matcher/ratio", .double 0.1)]

/-- ue4_missions/config/serpent/debug.yaml. -/
def ue4Debug : List (String × Value) := [
  ("debug/registration/check_normals", .bool false),
  ("debug/registration/publish_clouds", .bool true),
  ("debug/registration/publish_clouds_alt", .bool false),
  ("debug/stereo/print_stats", .bool true),
  ("debug/stereo/publish_stats", .bool true),
  ("debug/stereo/publish_intermediate_results", .bool true),
  ("debug/stereo/publish_points", .bool false),
  ("debug/stereo/rich_keypoints", .bool false),
  ("debug/stereo/rich_matches", .bool false),
  ("debug/optimisation/publish_stereo_points", .bool false),
  ("debug/optimisation/on_crash/save", .bool true),
  ("debug/optimisation/on_crash/print", .bool true),
  ("debug/optimisation/on_crash/print_options/verbose", .bool false),
  ("debug/optimisation/on_crash/print_options/min_error", .double 10)]

/-- ue4_missions/config/serpent/mission/*.yaml. -/
def ue4Missions : List (String × List (String × Value)) := [
  ("icy_surface", [
    ("gravity", .double 9.8),
    ("pose/position/x", .double (-1.9999804496765137)),
    ("pose/position/y", .double (-0.0011181640438735)),
    ("pose/position/z", .double 3.637079954147339)])]

/-! ### simulator_prcp_missions -/

/-- simulator_prcp_missions/config/serpent/filter.yaml. -/
def simulatorFilter : List (String × Value) := [
  ("first_pointcloud_removal/enabled", .bool false),
  ("time_field_filter/enabled", .bool false),
  ("time_field_filter/max", .double 0.1),
  ("body_filter/enabled", .bool false),
  ("body_filter/min/x", .double 0),
  ("body_filter/min/y", .double 0),
  ("body_filter/min/z", .double 0),
  ("body_filter/max/x", .double 0),
  ("body_filter/max/y", .double 0),
  ("body_filter/max/z", .double 0),
  ("body_filter/translation/x", .double 0),
  ("body_filter/translation/y", .double 0),
  ("body_filter/translation/z", .double 0),
  ("body_filter/rotation/rx", .double 0),
  ("body_filter/rotation/ry", .double 0),
  ("body_filter/rotation/rz", .double 0),
  ("random_sample_filter/enabled", .bool false),
  ("random_sample_filter/sample_size", .int 5000),
  ("random_sample_filter/random_seed", .int 0),
  ("range_filter/enabled", .bool true),
  ("range_filter/min", .double 0.1),
  ("range_filter/max", .int 1000),
  ("statistical_outlier_removal/enabled", .bool false),
  ("statistical_outlier_removal/mean_k", .int 1),
  ("statistical_outlier_removal/stddev_mul_thresh", .double 0),
  ("voxel_grid_filter/enabled", .bool true),
  ("voxel_grid_filter/leaf_size", .double 0.25),
  ("voxel_grid_filter/minimum_points_number_per_voxel", .int 1),
  ("stereo_mask/enabled", .bool false),
  ("stereo_mask/top_left_x", .int 0),
  ("stereo_mask/top_left_y", .int 0),
  ("stereo_mask/height", .int 0),
  ("stereo_mask/width", .int 0)]

/-- simulator_prcp_missions/config/serpent/format.yaml. -/
def simulatorFormat : List (String × Value) := [
  ("pointcloud_type", .string "CUSTOM")]

/-- simulator_prcp_missions/config/serpent/normal_estimation.yaml. -/
def simulatorNormalEstimation : List (String × Value) := [
  ("normal_estimation/threads", .int 1),
  ("normal_estimation/viewpoint/x", .double 0),
  ("normal_estimation/viewpoint/y", .double 0),
  ("normal_estimation/viewpoint/z", .double 0),
  ("normal_estimation/method", .string "knn"),
  ("normal_estimation/k", .int 30),
  ("normal_estimation/radius", .double 1)]

/-- simulator_prcp_missions/config/serpent/tuning.yaml. -/
def simulatorTuning : List (String × Value) := [
  ("prior_noise/position", .double 0.001),
  ("prior_noise/rotation", .double 0.001),
  ("prior_noise/linear_velocity", .double 0.001),
  ("prior_noise/accelerometer_bias", .double 0.0001),
  ("prior_noise/gyroscope_bias", .double 0.0001),
  ("prior_noise/barometer_bias", .double 0.000001),
  ("imu/reference_frame", .string "NWU"),
  ("imu/noise/integration", .double 0.0001),
  ("imu/noise/integration_bias", .double 0.003),
  ("imu/noise/accelerometer_bias", .double 0.000005),
  ("imu/noise/gyroscope_bias", .double 0.00000024),
  ("imu/noise/overwrite", .bool true),
  ("imu/noise/accelerometer", .double 0.0004),
  ("imu/noise/gyroscope", .double 0.00002424),
  ("barometer/noise/barometer_bias", .double 0.000001),
  ("barometer/noise/overwrite", .bool true),
  ("barometer/noise/barometer", .double 0.01),
  ("mdc/translation", .bool true),
  ("mdc/rotation", .bool true),
  ("isam2/optimization", .string "GaussNewton"),
  ("isam2/gauss_newton_params/wildfire_threshold", .double 0.001),
  ("isam2/dogleg_params/initial_delta", .double 1),
  ("isam2/dogleg_params/wildfire_threshold", .double 0.00001),
  ("isam2/dogleg_params/trust_region_adaptation_mode", .string "SEARCH_EACH_ITERATION"),
  ("isam2/dogleg_params/verbose", .bool false),
  ("isam2/relinearize_threshold", .double 0.1),
  ("isam2/relinearize_skip", .int 10),
  ("isam2/enable_relinearization", .bool true),
  ("isam2/evaluate_nonlinear_error", .bool false),
  ("isam2/factorization", .string "CHOLESKY"),
  ("isam2/cache_linearized_factors", .bool true),
  ("optimisation/factors/barometer", .bool false),
  ("optimisation/factors/imu", .bool true),
  ("optimisation/factors/registration", .bool true),
  ("optimisation/factors/stereo", .bool false),
  ("optimisation/marginalisation/enabled", .bool false),
  ("optimisation/marginalisation/window_size", .int 100),
  ("registration_covariance/method", .string "CENSI"),
  ("registration_covariance/model", .string "POINT_TO_PLANE_LINEARISED"),
  ("registration_covariance/constant/rotation", .double 0.0174533),
  ("registration_covariance/constant/translation", .double 0.01),
  ("registration_covariance/point_covariance/method", .string "CONSTANT"),
  ("registration_covariance/point_covariance/constant", .double 0.05),
  ("registration_covariance/point_covariance/range_noise", .double 0.05),
  ("registration_covariance/point_covariance/range_bias_noise", .double 0.02),
  ("s2s/method", .string "fast_gicp"),
  ("s2s/base/maximum_iterations", .int 30),
  ("s2s/base/ransac_iterations", .int 0),
  ("s2s/base/ransac_outlier_rejection_threshold", .double 0.05),
  ("s2s/base/max_correspondence_distance", .double 0.5),
  ("s2s/base/transformation_epsilon", .double 0.001),
  ("s2s/base/transformation_rotation_epsilon", .double 0.0001),
  ("s2s/base/euclidean_fitness_epsilon", .double 0.0001),
  ("s2s/icp/use_reciprocal_correspondences", .bool false),
  ("s2s/gicp/rotation_epsilon", .double 0.002),
  ("s2s/gicp/correspondence_randomness", .int 20),
  ("s2s/gicp/maximum_optimizer_iterations", .int 10),
  ("s2s/gicp/translation_gradient_tolerance", .double 0.01),
  ("s2s/gicp/rotation_gradient_tolerance", .double 0.01),
  ("s2s/lsq/rotation_epsilon", .double 0.002),
  ("s2s/lsq/initial_lambda_factor", .double 0.000000001),
  ("s2s/lsq/debug_print", .bool false),
  ("s2s/fast_gicp/num_threads", .int 8),
  ("s2s/fast_gicp/correspondence_randomness", .int 20),
  ("s2s/fast_gicp/regularization_method", .string "PLANE"),
  ("s2s/fast_vgicp/resolution", .double 1),
  ("s2s/fast_vgicp/voxel_accumulation_mode", .string "ADDITIVE"),
  ("s2s/fast_vgicp/neighbor_search_method", .string "DIRECT1"),
  ("s2s/ndt/resolution", .double 1),
  ("s2s/ndt/step_size", .double 0.1),
  ("s2s/ndt/outlier_ratio", .double 0.55),
  ("s2m/enabled", .bool true),
  ("s2m/method", .string "fast_gicp"),
  ("s2m/base/maximum_iterations", .int 30),
  ("s2m/base/ransac_iterations", .int 0),
  ("s2m/base/ransac_outlier_rejection_threshold", .double 0.05),
  ("s2m/base/max_correspondence_distance", .double 0.5),
  ("s2m/base/transformation_epsilon", .double 0.001),
  ("s2m/base/transformation_rotation_epsilon", .double 0.0001),
  ("s2m/base/euclidean_fitness_epsilon", .double 0.0001),
  ("s2m/icp/use_reciprocal_correspondences", .bool false),
  ("s2m/gicp/rotation_epsilon", .double 0.002),
  ("s2m/gicp/correspondence_randomness", .int 20),
  ("s2m/gicp/maximum_optimizer_iterations", .int 10),
  ("s2m/gicp/translation_gradient_tolerance", .double 0.01),
  ("s2m/gicp/rotation_gradient_tolerance", .double 0.01),
  ("s2m/lsq/rotation_epsilon", .double 0.002),
  ("s2m/lsq/initial_lambda_factor", .double 0.000000001),
  ("s2m/lsq/debug_print", .bool false),
  ("s2m/fast_gicp/num_threads", .int 8),
  ("s2m/fast_gicp/correspondence_randomness", .int 20),
  ("s2m/fast_gicp/regularization_method", .string "PLANE"),
  ("s2m/fast_vgicp/resolution", .double 1),
  ("s2m/fast_vgicp/voxel_accumulation_mode", .string "ADDITIVE"),
  ("s2m/fast_vgicp/neighbor_search_method", .string "DIRECT1"),
  ("s2m/ndt/resolution", .double 1),
  ("s2m/ndt/step_size", .double 0.1),
  ("s2m/ndt/outlier_ratio", .double 0.55),
  ("map_frame_id", .string "map"),
  ("mapping/frame_extraction_method", .string "NEARBY"),
  ("mapping/frame_extraction_number", .int 20),
  ("mapping/distance_threshold", .double 0.1),
  ("mapping/rotation_threshold", .double 0.05235987755982988),
  ("mapping/voxel_grid_filter/enabled_local", .bool true),
  ("mapping/voxel_grid_filter/enabled_global", .bool true),
  ("mapping/voxel_grid_filter/leaf_size", .double 0.05),
  ("mapping/voxel_grid_filter/minimum_points_number_per_voxel", .int 1),
  ("stereo_factors/noise/left_x", .double 5),
  ("stereo_factors/noise/right_x", .double 5),
  ("stereo_factors/noise/y", .double 10),
  ("stereo_factors/robust/enabled", .bool true),
  ("stereo_factors/robust/type", .string "huber"),
  ("stereo_factors/robust/cauchy/k", .double 0.1),
  ("stereo_factors/robust/cauchy/reweight_scheme", .string "BLOCK"),
  ("stereo_factors/robust/dcs/c", .double 1),
  ("stereo_factors/robust/dcs/reweight_scheme", .string "BLOCK"),
  ("stereo_factors/robust/fair/c", .double 1.3998),
  ("stereo_factors/robust/fair/reweight_scheme", .string "BLOCK"),
  ("stereo_factors/robust/geman_mcclure/c", .double 1),
  ("stereo_factors/robust/geman_mcclure/reweight_scheme", .string "BLOCK"),
  ("stereo_factors/robust/huber/k", .double 1.345),
  ("stereo_factors/robust/huber/reweight_scheme", .string "BLOCK"),
  ("stereo_factors/robust/l2_with_dead_zone/k", .double 1),
  ("stereo_factors/robust/l2_with_dead_zone/reweight_scheme", .string "BLOCK"),
  ("stereo_factors/robust/tukey/c", .double 4.6851),
  ("stereo_factors/robust/tukey/reweight_scheme", .string "BLOCK"),
  ("stereo_factors/robust/welsch/c", .double 2.9846),
  ("stereo_factors/robust/welsch/reweight_scheme", .string "BLOCK"),
  ("stereo_factors/left_cam_frame", .string "camera_front_left"),
  ("stereo_tracking/only_graph_frames", .bool true),
  ("stereo_tracking/new_feature_dist_threshold", .double 5),
  ("stereo_tracking/detector/type", .string "GFTT"),
  ("stereo_tracking/detector/fast/threshold", .int 20),
  ("stereo_tracking/detector/fast/nonmax_suppression", .bool true),
  ("stereo_tracking/detector/fast/type", .string "TYPE_9_16"),
  ("stereo_tracking/detector/gftt/max_corners", .int 250),
  ("stereo_tracking/detector/gftt/quality_level", .double 0.01),
  ("stereo_tracking/detector/gftt/min_distance", .double 1),
  ("stereo_tracking/detector/gftt/block_size", .int 3),
  ("stereo_tracking/detector/gftt/use_harris_detector", .bool false),
  ("stereo_tracking/detector/gftt/k", .double 0.04),
  ("stereo_tracking/detector/orb/num_features", .int 250),
  ("stereo_tracking/detector/orb/scale_factor", .double 1.2),
  ("stereo_tracking/detector/orb/num_levels", .int 8),
  ("stereo_tracking/detector/orb/edge_threshold", .int 31),
  ("stereo_tracking/detector/orb/first_level", .int 0),
  ("stereo_tracking/detector/orb/wta_k", .int 2),
  ("stereo_tracking/detector/orb/score_type", .string "HARRIS_SCORE"),
  ("stereo_tracking/detector/orb/patch_size", .int 31),
  ("stereo_tracking/detector/orb/fast_threshold", .int 20),
  ("stereo_tracking/detector/sift/num_features", .int 100),
  ("stereo_tracking/detector/sift/num_octave_layers", .int 3),
  ("stereo_tracking/detector/sift/contrast_threshold", .double 0.04),
  ("stereo_tracking/detector/sift/edge_threshold", .double 10),
  ("stereo_tracking/detector/sift/sigma", .double 1.6),
  ("stereo_tracking/stereo_match_filter/vertical_pixel_threshold", .double 1),
  ("stereo_tracking/stereo_distance_filter/enabled", .bool true),
  ("stereo_tracking/stereo_distance_filter/max_distance", .double 15),
  ("stereo_tracking/stereo_distance_filter/min_distance", .double 1),
  ("stereo_tracking/sparse_optical_flow/type", .string "PyrLK"),
  ("stereo_tracking/sparse_optical_flow/pyrlk/win_size", .ints [21, 21]),
  ("stereo_tracking/sparse_optical_flow/pyrlk/max_level", .int 3),
  ("stereo_tracking/sparse_optical_flow/pyrlk/term_criteria/type", .string "COUNT+EPS"),
  ("stereo_tracking/sparse_optical_flow/pyrlk/term_criteria/max_count", .int 30),
  ("stereo_tracking/sparse_optical_flow/pyrlk/term_criteria/epsilon", .double 0.01),
  ("stereo_tracking/sparse_optical_flow/pyrlk/flags", .int 0),
  ("stereo_tracking/sparse_optical_flow/pyrlk/min_eig_threshold", .double 0.0001),
  ("stereo_tracking/stereo_keypoint_matcher/cost_function", .string "SSD"),
  ("stereo_tracking/stereo_keypoint_matcher/window_size/width", .int 7),
  ("stereo_tracking/stereo_keypoint_matcher/window_size/height", .int 7),
  ("stereo_tracking/stereo_keypoint_matcher/cost_threshold", .double 1000000000),
  ("stereo_tracking/stereo_keypoint_matcher/vertical_pixel_threshold", .double 1),
  ("stereo_tracking/stereo_keypoint_matcher/matching_filter", .string "RATIO_TEST"),
  ("stereo_tracking/stereo_keypoint_matcher/ratio", .double 0.1)]

/-- simulator_prcp_missions/config/serpent/debug.yaml. -/
def simulatorDebug : List (String × Value) := [
  ("debug/registration/check_normals", .bool false),
  ("debug/registration/publish_clouds", .bool true),
  ("debug/registration/publish_clouds_alt", .bool false),
  ("debug/stereo/print_stats", .bool true),
  ("debug/stereo/publish_stats", .bool true),
  ("debug/stereo/publish_intermediate_results", .bool true),
  ("debug/stereo/publish_points", .bool true),
  ("debug/stereo/rich_keypoints", .bool false),
  ("debug/stereo/rich_matches", .bool false),
  ("debug/optimisation/publish_stereo_points", .bool true),
  ("debug/optimisation/on_crash/save", .bool true),
  ("debug/optimisation/on_crash/print", .bool true),
  ("debug/optimisation/on_crash/print_options/verbose", .bool false),
  ("debug/optimisation/on_crash/print_options/min_error", .double 10)]

/-- simulator_prcp_missions/config/serpent/mission/*.yaml. -/
def simulatorMissions : List (String × List (String × Value)) := [
  ("surface_ellipse_1", [
    ("gravity", .double 9.8),
    ("pose/position/x", .double 0),
    ("pose/position/y", .double 0),
    ("pose/position/z", .double 1),
    ("velocity/linear/x", .double 0),
    ("velocity/linear/y", .double 1.5707963267948966),
    ("velocity/linear/z", .double 0)]),
  ("surface_ellipse_2", [
    ("gravity", .double 9.8),
    ("pose/position/x", .double 0),
    ("pose/position/y", .double 0),
    ("pose/position/z", .double 1),
    ("velocity/linear/x", .double 0),
    ("velocity/linear/y", .double 0.7853981633974483),
    ("velocity/linear/z", .double 0)]),
  ("surface_spiral_1", [
    ("gravity", .double 9.8),
    ("pose/position/x", .double 0),
    ("pose/position/y", .double 0),
    ("pose/position/z", .double 1)]),
  ("surface_spiral_2", [
    ("gravity", .double 9.8),
    ("pose/position/x", .double 0),
    ("pose/position/y", .double 0),
    ("pose/position/z", .double 1)]),
  ("surface_spiral_2_noiseless", [
    ("gravity", .double 9.8),
    ("pose/position/x", .double 0),
    ("pose/position/y", .double 0),
    ("pose/position/z", .double 1)]),
  ("surface_stationary_1", [
    ("gravity", .double 9.8),
    ("pose/position/x", .double 0),
    ("pose/position/y", .double 0),
    ("pose/position/z", .double 1)]),
  ("surface_traverse_1", [
    ("gravity", .double 9.8),
    ("pose/position/x", .double 0),
    ("pose/position/y", .double 0),
    ("pose/position/z", .double 1)])]

/-! ### The parameter servers -/

/-- A data set: the frames of its robot, its files and its missions. -/
structure DataSet where
  name : String
  frames : List String
  files : List (String × Value)
  missions : List (String × List (String × Value))

/-- The robot has the frame. -/
def DataSet.hasFrame (d : DataSet) (f : String) : Bool := decide (f ∈ d.frames)

/-- The parameter server after load_parameters.launch:11-28 has loaded the files of the data set and of a mission. -/
def DataSet.server (d : DataSet) (mission : List (String × Value)) (threads : Int) : Server :=
  Server.set (fun k => ((mission ++ d.files).find? fun e => e.1 = k).map Prod.snd) "threads" (.int threads)

/-- snowboard/config/serpent, launched by snowboard/launch/*.launch. -/
def snowboard : DataSet where
  name := "snowboard"
  frames := ["base_link", "imu", "lidar", "left_stereo", "left_stereo_left_cam", "left_stereo_right_cam", "right_stereo",
    "right_stereo_left_cam", "right_stereo_right_cam", "front_stereo", "front_stereo_left_cam", "front_stereo_right_cam", "up_stereo",
    "up_stereo_left_cam", "up_stereo_right_cam"]
  files := snowboardFilter ++ (snowboardFormat ++ (snowboardNormalEstimation ++ (snowboardTuning ++ snowboardDebug)))
  missions := snowboardMissions

/-- ue4_missions/config/serpent, launched by ue4_missions/launch/*.launch. -/
def ue4 : DataSet where
  name := "ue4_missions"
  frames := ["base_link", "imu", "lidar", "camera", "left_cam", "right_cam"]
  files := ue4Filter ++ (ue4Format ++ (ue4NormalEstimation ++ (ue4Tuning ++ ue4Debug)))
  missions := ue4Missions

/-- simulator_prcp_missions/config/serpent, launched by simulator_prcp_missions/launch/*.launch. -/
def simulator : DataSet where
  name := "simulator_prcp_missions"
  frames := ["base_link", "imu", "lidar", "camera_left_left", "camera_left_right", "camera_right_left", "camera_right_right",
    "camera_front_left", "camera_front_right"]
  files := simulatorFilter ++ (simulatorFormat ++ (simulatorNormalEstimation ++ (simulatorTuning ++ simulatorDebug)))
  missions := simulatorMissions

/-- All data sets of the repository. -/
def dataSets : List DataSet := [snowboard, ue4, simulator]

/-- The call of `param` takes the value (and not its default). -/
def Read.takes (v : Value) : Read → Bool
  | .bool _ _ => match v with | .bool _ => true | _ => false
  | .str _ _ => match v with | .string _ => true | _ => false
  | .double _ _ => match v with | .double _ | .int _ => true | _ => false
  | .int _ _ => match v with | .int _ => true | _ => false
  | .ints _ _ => match v with | .ints _ => true | _ => false

end Params

end Serpent
