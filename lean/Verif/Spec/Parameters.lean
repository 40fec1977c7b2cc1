import Verif.Model.Parameters

/-!
# Specification of the options: what the sources read, what the configuration files set

Written without the model of the components (only the type `Value` and the parameter server are used): the two tables are taken from
the sources and from the configuration files line by line. Comments in the configuration files name the values allowed.
-/

namespace Serpent

namespace Params

/-! ### What a user sets -/

/-- A flag is set. -/
def Flag (p : Server) (k : String) (b : Bool) : Prop := p k = some (.bool b)

/-- A word is set. -/
def Word (p : Server) (k : String) (s : String) : Prop := p k = some (.string s)

/-- A number is set, written with or without a decimal point. -/
def Number (p : Server) (k : String) (x : ℚ) : Prop := p k = some (.double x) ∨ ∃ n : Int, p k = some (.int n) ∧ x = n

/-- A whole number is set. -/
def Whole (p : Server) (k : String) (n : Int) : Prop := p k = some (.int n)

/-- Several flags are set. -/
def Flags (p : Server) (l : List (String × Bool)) : Prop := ∀ e ∈ l, Flag p e.1 e.2

/-- Several words are set. -/
def Words (p : Server) (l : List (String × String)) : Prop := ∀ e ∈ l, Word p e.1 e.2

/-- Several numbers are set. -/
def Numbers (p : Server) (l : List (String × ℚ)) : Prop := ∀ e ∈ l, Number p e.1 e.2

/-- Several whole numbers are set. -/
def Wholes (p : Server) (l : List (String × Int)) : Prop := ∀ e ∈ l, Whole p e.1 e.2

/-! ### The reads in the sources -/

/-- A call of `nh.param<T>(name, default)`. -/
inductive Read where
  | bool (name : String) (default : Bool)
  | str (name : String) (default : String)
  | double (name : String) (default : ℚ)
  | int (name : String) (default : Int)
  | ints (name : String) (default : List Int)

/-- The name that is read. -/
def Read.name : Read → String
  | .bool k _ | .str k _ | .double k _ | .int k _ | .ints k _ => k

/-- The call gives the same on both servers. -/
def Read.Same (p q : Server) : Read → Prop
  | .bool k d => p.bool k d = q.bool k d
  | .str k d => p.str k d = q.str k d
  | .double k d => p.double k d = q.double k d
  | .int k d => p.int k d = q.int k d
  | .ints k d => p.ints k d = q.ints k d

/-- The value is the default of the call. -/
def Read.isDefault (v : Value) : Read → Bool
  | .bool _ d => decide (v = .bool d)
  | .str _ d => decide (v = .string d)
  | .double _ d => decide (v = .double d) || (decide (d.den = 1) && decide (v = .int d.num))
  | .int _ d => decide (v = .int d)
  | .ints _ d => decide (v = .ints d)

/-- serpent/src/front_end/lidar/pointcloud_filter.cpp. -/
def filterReads : List Read := [
  .bool "voxel_grid_filter/enabled" true,
  .bool "body_filter/enabled" false,
  .bool "range_filter/enabled" true,
  .bool "statistical_outlier_removal/enabled" false,
  .bool "random_sample_filter/enabled" false,
  .double "voxel_grid_filter/leaf_size" 0.1,
  .double "voxel_grid_filter/minimum_points_number_per_voxel" 1,
  .double "body_filter/min/x" 0,
  .double "body_filter/min/y" 0,
  .double "body_filter/min/z" 0,
  .double "body_filter/max/x" 0,
  .double "body_filter/max/y" 0,
  .double "body_filter/max/z" 0,
  .double "body_filter/translation/x" 0,
  .double "body_filter/translation/y" 0,
  .double "body_filter/translation/z" 0,
  .double "body_filter/rotation/rx" 0,
  .double "body_filter/rotation/ry" 0,
  .double "body_filter/rotation/rz" 0,
  .double "range_filter/min" 0,
  .double "range_filter/max" doubleMax,
  .int "statistical_outlier_removal_filter/mean_k" 1,
  .double "statistical_outlier_removal_filter/stddev_mul_thresh" 0,
  .int "random_sample_filter/sample_size" 3000,
  .int "random_sample_filter/random_seed" 0]

/-- serpent/src/front_end/lidar/pointcloud_formatter.cpp. -/
def formatterReads : List Read := [
  .str "pointcloud_type" "OUSTER",
  .bool "time_field_filter/enabled" false,
  .double "time_field_filter/max" 0.1,
  .bool "first_pointcloud_removal/enabled" false]

/-- serpent/include/serpent/front_end/lidar/pointcloud_normal_estimation-inl.hpp. -/
def normalsReads : List Read := [
  .int "normal_estimation/threads" 1,
  .double "normal_estimation/viewpoint/x" 0,
  .double "normal_estimation/viewpoint/y" 0,
  .double "normal_estimation/viewpoint/z" 0,
  .str "normal_estimation/method" "knn",
  .int "normal_estimation/k" 30,
  .double "normal_estimation/radius" 1]

/-- serpent/include/serpent/mapping/mapping-inl.hpp. -/
def mappingReads : List Read := [
  .str "map_frame_id" "map",
  .double "mapping/distance_threshold" 1,
  .double "mapping/rotation_threshold" piSixth,
  .int "mapping/frame_extraction_number" 10,
  .str "mapping/frame_extraction_method" "NEARBY",
  .bool "mapping/voxel_grid_filter/enabled_local" true,
  .bool "mapping/voxel_grid_filter/enabled_global" true,
  .double "mapping/voxel_grid_filter/leaf_size" 0.05,
  .double "mapping/voxel_grid_filter/minimum_points_number_per_voxel" 1]

/-- serpent/include/serpent/front_end/lidar/registration_methods-inl.hpp, with the prefix. -/
def methodReads (pre : String) : List Read := [
  .int (pre ++ "base/maximum_iterations") 10,
  .int (pre ++ "base/ransac_iterations") 0,
  .double (pre ++ "base/ransac_outlier_rejection_threshold") 0.05,
  .double (pre ++ "base/max_correspondence_distance") doubleMax,
  .double (pre ++ "base/transformation_epsilon") 0,
  .double (pre ++ "base/transformation_rotation_epsilon") 0,
  .double (pre ++ "base/euclidean_fitness_epsilon") 0,
  .bool (pre ++ "icp/use_reciprocal_correspondences") false,
  .double (pre ++ "gicp/rotation_epsilon") 0.002,
  .int (pre ++ "gicp/correspondence_randomness") 20,
  .int (pre ++ "gicp/maximum_optimizer_iterations") 20,
  .double (pre ++ "lsq/rotation_epsilon") 0.002,
  .double (pre ++ "lsq/initial_lambda_factor") 0.000000001,
  .bool (pre ++ "lsq/debug_print") false,
  .int (pre ++ "fast_gicp/num_threads") 4,
  .int (pre ++ "fast_gicp/correspondence_randomness") 20,
  .str (pre ++ "fast_gicp/regularization_method") "PLANE",
  .double (pre ++ "fast_vgicp/resolution") 1,
  .str (pre ++ "fast_vgicp/voxel_accumulation_mode") "ADDITIVE",
  .str (pre ++ "fast_vgicp/neighbor_search_method") "DIRECT1",
  .int (pre ++ "base/maximum_iterations") 35,
  .double (pre ++ "ndt/resolution") 1,
  .double (pre ++ "ndt/step_size") 0.1,
  .double (pre ++ "ndt/outlier_ratio") 0.55,
  .str (pre ++ "method") "fast_gicp"]

/-- serpent/include/serpent/front_end/lidar/registration-inl.hpp. -/
def registrationReads : List Read := [
  .bool "s2m/enabled" true,
  .str "registration_covariance/method" "CENSI",
  .double "registration_covariance/constant/rotation" 0.0174533,
  .double "registration_covariance/constant/translation" 0.01,
  .str "registration_covariance/model" "POINT_TO_PLANE_LINEARISED",
  .str "registration_covariance/point_covariance/method" "RANGE",
  .double "registration_covariance/point_covariance/constant" 0.05,
  .bool "voxel_grid_filter/enabled" true,
  .double "voxel_grid_filter/leaf_size" 0.1,
  .double "registration_covariance/point_covariance/range_bias_noise" 0.02,
  .double "registration_covariance/point_covariance/range_noise" 0.05,
  .bool "debug/registration/check_normals" false,
  .bool "debug/registration/publish_clouds" false,
  .bool "debug/registration/publish_clouds_alt" false]

/-- serpent/src/front_end/stereo/stereo_factor_finder.cpp. -/
def stereoReads : List Read := [
  .int "stereo_tracking/detector/fast/threshold" 10,
  .bool "stereo_tracking/detector/fast/nonmax_suppression" true,
  .str "stereo_tracking/detector/fast/type" "TYPE_9_16",
  .int "stereo_tracking/detector/gftt/max_corners" 1000,
  .double "stereo_tracking/detector/gftt/quality_level" 0.01,
  .double "stereo_tracking/detector/gftt/min_distance" 1,
  .int "stereo_tracking/detector/gftt/block_size" 3,
  .bool "stereo_tracking/detector/gftt/use_harris_detector" false,
  .double "stereo_tracking/detector/gftt/k" 0.04,
  .int "stereo_tracking/detector/orb/num_features" 500,
  .double "stereo_tracking/detector/orb/scale_factor" 1.2,
  .int "stereo_tracking/detector/orb/num_levels" 8,
  .int "stereo_tracking/detector/orb/edge_threshold" 31,
  .int "stereo_tracking/detector/orb/first_level" 0,
  .int "stereo_tracking/detector/orb/wta_k" 2,
  .str "stereo_tracking/detector/orb/score_type" "HARRIS_SCORE",
  .int "stereo_tracking/detector/orb/patch_size" 31,
  .int "stereo_tracking/detector/orb/fast_threshold" 20,
  .int "stereo_tracking/detector/sift/num_features" 10,
  .int "stereo_tracking/detector/sift/num_octave_layers" 3,
  .double "stereo_tracking/detector/sift/constrast_threshold" 0.04,
  .double "stereo_tracking/detector/sift/edge_threshold" 10,
  .double "stereo_tracking/detector/sift/sigma" 1.6,
  .bool "debug/stereo/publish_stats" false,
  .bool "debug/stereo/publish_intermediate_results" false,
  .bool "debug/stereo/publish_points" false,
  .str "stereo_tracking/detector/type" "ORB",
  .double "stereo_tracking/stereo_match_filter/vertical_pixel_threshold" 1,
  .str "stereo_tracking/sparse_optical_flow/type" "PyrLK",
  .ints "stereo_tracking/sparse_optical_flow/win_size" [21, 21],
  .int "stereo_tracking/sparse_optical_flow/max_level" 3,
  .str "stereo_tracking/sparse_optical_flow/term_criteria/type" "COUNT+EPS",
  .int "stereo_tracking/sparse_optical_flow/term_criteria/max_count" 30,
  .double "stereo_tracking/sparse_optical_flow/term_criteria/epsilon" 0.01,
  .int "stereo_tracking/sparse_optical_flow/flags" 0,
  .double "stereo_tracking/sparse_optical_flow/min_eig_threshold" 0,
  .int "stereo_tracking/stereo_keypoint_matcher/window_size/width" 3,
  .int "stereo_tracking/stereo_keypoint_matcher/window_size/height" 3,
  .str "stereo_tracking/stereo_keypoint_matcher/cost_function" "SAD",
  .double "stereo_tracking/stereo_keypoint_matcher/vertical_pixel_threshold" 1,
  .str "stereo_tracking/stereo_keypoint_matcher/matching_filter" "RATIO_TEST",
  .double "stereo_tracking/stereo_keypoint_matcher/ratio" 0.5,
  .double "stereo_tracking/stereo_keypoint_matcher/cost_threshold" 1,
  .bool "stereo_mask/enabled" false,
  .int "stereo_mask/height" 0,
  .int "stereo_mask/width" 0,
  .int "stereo_mask/top_left_x" 0,
  .int "stereo_mask/top_left_y" 0,
  .double "stereo_tracking/new_feature_dist_threshold" 5,
  .bool "debug/stereo/print_stats" false,
  .bool "debug/stereo/rich_keypoints" true,
  .bool "debug/stereo/rich_matches" true,
  .bool "stereo_tracking/stereo_distance_filter/enabled" false,
  .double "stereo_tracking/stereo_distance_filter/max_distance" floatMax,
  .double "stereo_tracking/stereo_distance_filter/min_distance" 0]

/-- serpent/src/front_end/frontend.cpp. -/
def frontendReads : List Read := [
  .str "map_frame_id" "map",
  .bool "mdc/translation" true,
  .bool "mdc/rotation" true,
  .bool "stereo_tracking/only_graph_frames" false,
  .bool "optimisation/factors/stereo" true,
  .bool "imu/noise/overwrite" false,
  .double "gravity" 9.81,
  .double "imu/noise/integration" 0.001,
  .double "imu/noise/integration_bias" 0.001,
  .double "imu/noise/accelerometer_bias" 0.001,
  .double "imu/noise/gyroscope_bias" 0.001,
  .double "imu/noise/accelerometer" 0.001,
  .double "imu/noise/gyroscope" 0.001,
  .bool "optimisation/factors/barometer" true,
  .bool "barometer/noise/overwrite" false,
  .double "barometer/noise/barometer" 0.01,
  .str "imu/reference_frame" "NED",
  .double "prior_noise/position" 0.001,
  .double "prior_noise/rotation" 0.001,
  .double "pose/position/x" 0,
  .double "pose/position/y" 0,
  .double "pose/position/z" 0,
  .double "prior_noise/linear_velocity" 0.001,
  .double "velocity/linear/x" 0,
  .double "velocity/linear/y" 0,
  .double "velocity/linear/z" 0]

/-- serpent/src/back_end/optimisation.cpp. -/
def backendReads : List Read := [
  .bool "optimisation/factors/imu" true,
  .bool "optimisation/factors/registration" true,
  .bool "optimisation/factors/stereo" true,
  .bool "optimisation/factors/barometer" true,
  .str "map_frame_id" "map",
  .bool "debug/optimisation/publish_stereo_points" false,
  .double "gravity" 9.81,
  .double "imu/noise/integration" 0.001,
  .double "imu/noise/integration_bias" 0.001,
  .double "imu/noise/accelerometer_bias" 0.001,
  .double "imu/noise/gyroscope_bias" 0.001,
  .str "isam2/optimization" "GaussNewton",
  .double "isam2/gauss_newton_params/wildfire_threshold" 0.001,
  .double "isam2/dogleg_params/initial_delta" 1,
  .double "isam2/dogleg_params/wildfire_threshold" 0.00001,
  .str "isam2/dogleg_params/trust_region_adaptation_mode" "SEARCH_EACH_ITERATION",
  .bool "isam2/dogleg_params/verbose" false,
  .double "isam2/relinearize_threshold" 0.1,
  .str "isam2/factorization" "CHOLESKY",
  .int "isam2/relinearize_skip" 10,
  .bool "isam2/enable_relinearization" true,
  .bool "isam2/evaluate_nonlinear_error" false,
  .bool "isam2/cache_linearized_factors" true,
  .str "stereo_factors/left_cam_frame" "stereo",
  .double "stereo_factors/noise/left_x" 5,
  .double "stereo_factors/noise/right_x" 5,
  .double "stereo_factors/noise/y" 10,
  .bool "stereo_factors/robust/enabled" true,
  .str "stereo_factors/robust/type" "huber",
  .double "stereo_factors/robust/cauchy/k" 0.1,
  .str "stereo_factors/robust/cauchy/reweight_scheme" "BLOCK",
  .double "stereo_factors/robust/dcs/c" 1,
  .str "stereo_factors/robust/dcs/reweight_scheme" "BLOCK",
  .double "stereo_factors/robust/fair/c" 1.3998,
  .str "stereo_factors/robust/fair/reweight_scheme" "BLOCK",
  .double "stereo_factors/robust/geman_mcclure/c" 1,
  .str "stereo_factors/robust/geman_mcclure/reweight_scheme" "BLOCK",
  .double "stereo_factors/robust/huber/k" 1.345,
  .str "stereo_factors/robust/huber/reweight_scheme" "BLOCK",
  .double "stereo_factors/robust/l2_with_dead_zone/k" 1,
  .str "stereo_factors/robust/l2_with_dead_zone/reweight_scheme" "BLOCK",
  .double "stereo_factors/robust/tukey/c" 4.6851,
  .str "stereo_factors/robust/tukey/reweight_scheme" "BLOCK",
  .double "stereo_factors/robust/welsch/c" 2.9846,
  .str "stereo_factors/robust/welsch/reweight_scheme" "BLOCK",
  .double "barometer/noise/barometer_bias" 0.000001,
  .bool "optimisation/marginalisation/enabled" false,
  .int "optimisation/marginalisation/window_size" 100,
  .double "prior_noise/barometer_bias" 0.000001,
  .double "prior_noise/accelerometer_bias" 0.001,
  .double "prior_noise/gyroscope_bias" 0.001,
  .bool "debug/optimisation/on_crash/print" true,
  .bool "debug/optimisation/on_crash/save" false,
  .bool "debug/optimisation/on_crash/print_options/verbose" false,
  .double "debug/optimisation/on_crash/print_options/min_error" 0]

/-- serpent/src/nodes/*.cpp. -/
def nodeReads : List Read := [
  .bool "optimisation/factors/registration" true,
  .str "registration_covariance/method" "CENSI",
  .str "registration_covariance/point_covariance/method" "RANGE",
  .bool "optimisation/factors/stereo" true,
  .int "threads" 4,
  .bool "voxel_grid_filter/enabled" true,
  .bool "body_filter/enabled" false,
  .bool "range_filter/enabled" true,
  .bool "statistical_outlier_removal/enabled" false,
  .bool "random_sample_filter/enabled" false]

/-- All calls of `param` in serpent. -/
def reads : List Read :=
  filterReads ++ (formatterReads ++ (normalsReads ++ (mappingReads ++ (methodReads "s2s/" ++ (methodReads "s2m/" ++
    (registrationReads ++ (stereoReads ++ (frontendReads ++ (backendReads ++ nodeReads)))))))))

/-! ### The configuration files -/

/-- serpent/config/filter_default.yaml. -/
def shippedFilter : List (String × Value) := [
  ("first_pointcloud_removal/enabled", .bool false),
  ("time_field_filter/enabled", .bool false),
  ("time_field_filter/max", .double 0.1),
  ("body_filter/enabled", .bool false),
  ("body_filter/min/x", .double 0),
  ("body_filter/min/y", .double 0),
  ("body_filter/min/z", .double 0),
  ("body_filter/max/x", .double 0),
  ("body_filter/max/y", .double 0),
  ("body_filter/max/z", .double 0),
  ("body_filter/translation/x", .double 0),
  ("body_filter/translation/y", .double 0),
  ("body_filter/translation/z", .double 0),
  ("body_filter/rotation/rx", .double 0),
  ("body_filter/rotation/ry", .double 0),
  ("body_filter/rotation/rz", .double 0),
  ("random_sample_filter/enabled", .bool false),
  ("random_sample_filter/sample_size", .int 5000),
  ("random_sample_filter/random_seed", .int 0),
  ("range_filter/enabled", .bool true),
  ("range_filter/min", .double 0.1),
  ("range_filter/max", .int 1000),
  ("statistical_outlier_removal/enabled", .bool false),
  ("statistical_outlier_removal/mean_k", .int 1),
  ("statistical_outlier_removal/stddev_mul_thresh", .double 0),
  ("voxel_grid_filter/enabled", .bool true),
  ("voxel_grid_filter/leaf_size", .double 0.1),
  ("voxel_grid_filter/minimum_points_number_per_voxel", .int 1),
  ("stereo_mask/enabled", .bool false),
  ("stereo_mask/top_left_x", .int 0),
  ("stereo_mask/top_left_y", .int 0),
  ("stereo_mask/height", .int 0),
  ("stereo_mask/width", .int 0)]

/-- serpent/config/format_default.yaml. -/
def shippedFormat : List (String × Value) := [
  ("pointcloud_type", .string "OUSTER")]

/-- serpent/config/mission_default.yaml. -/
def shippedMission : List (String × Value) := [
  ("gravity", .double 9.81),
  ("pose/position/x", .double 0),
  ("pose/position/y", .double 0),
  ("pose/position/z", .double 0)]

/-- serpent/config/normal_estimation_default.yaml. -/
def shippedNormalEstimation : List (String × Value) := [
  ("normal_estimation/threads", .int 1),
  ("normal_estimation/viewpoint/x", .double 0),
  ("normal_estimation/viewpoint/y", .double 0),
  ("normal_estimation/viewpoint/z", .double 0),
  ("normal_estimation/method", .string "knn"),
  ("normal_estimation/k", .int 30),
  ("normal_estimation/radius", .double 1)]

/-- serpent/config/tuning_default.yaml. -/
def shippedTuning : List (String × Value) := [
  ("prior_noise/position", .double 0.001),
  ("prior_noise/rotation", .double 0.001),
  ("prior_noise/linear_velocity", .double 0.001),
  ("prior_noise/accelerometer_bias", .double 0.001),
  ("prior_noise/gyroscope_bias", .double 0.001),
  ("prior_noise/barometer_bias", .double 0.000001),
  ("imu/reference_frame", .string "NED"),
  ("imu/noise/integration", .double 0.001),
  ("imu/noise/integration_bias", .double 0.001),
  ("imu/noise/accelerometer_bias", .double 0.001),
  ("imu/noise/gyroscope_bias", .double 0.001),
  ("imu/noise/overwrite", .bool false),
  ("imu/noise/accelerometer", .double 0.001),
  ("imu/noise/gyroscope", .double 0.001),
  ("barometer/noise/barometer_bias", .double 0.000001),
  ("barometer/noise/overwrite", .bool true),
  ("barometer/noise/barometer", .double 0.01),
  ("mdc/translation", .bool true),
  ("mdc/rotation", .bool true),
  ("isam2/optimization", .string "GaussNewton"),
  ("isam2/gauss_newton_params/wildfire_threshold", .double 0.001),
  ("isam2/dogleg_params/initial_delta", .double 1),
  ("isam2/dogleg_params/wildfire_threshold", .double 0.00001),
  ("isam2/dogleg_params/trust_region_adaptation_mode", .string "SEARCH_EACH_ITERATION"),
  ("isam2/dogleg_params/verbose", .bool false),
  ("isam2/relinearize_threshold", .double 0.1),
  ("isam2/relinearize_skip", .int 10),
  ("isam2/enable_relinearization", .bool true),
  ("isam2/evaluate_nonlinear_error", .bool false),
  ("isam2/factorization", .string "CHOLESKY"),
  ("isam2/cache_linearized_factors", .bool true),
  ("optimisation/factors/barometer", .bool true),
  ("optimisation/factors/imu", .bool true),
  ("optimisation/factors/registration", .bool true),
  ("optimisation/factors/stereo", .bool true),
  ("optimisation/marginalisation/enabled", .bool false),
  ("optimisation/marginalisation/window_size", .int 100),
  ("registration_covariance/method", .string "CENSI"),
  ("registration_covariance/model", .string "POINT_TO_PLANE_LINEARISED"),
  ("registration_covariance/constant/rotation", .double 0.0174533),
  ("registration_covariance/constant/translation", .double 0.01),
  ("registration_covariance/point_covariance/method", .string "CONSTANT"),
  ("registration_covariance/point_covariance/constant", .double 0.05),
  ("registration_covariance/point_covariance/range_noise", .double 0.05),
  ("registration_covariance/point_covariance/range_bias_noise", .double 0.02),
  ("s2s/method", .string "fast_gicp"),
  ("s2s/base/maximum_iterations", .int 30),
  ("s2s/base/ransac_iterations", .int 0),
  ("s2s/base/ransac_outlier_rejection_threshold", .double 0.05),
  ("s2s/base/max_correspondence_distance", .double 0.5),
  ("s2s/base/transformation_epsilon", .double 0.001),
  ("s2s/base/transformation_rotation_epsilon", .double 0.0001),
  ("s2s/base/euclidean_fitness_epsilon", .double 0.0001),
  ("s2s/icp/use_reciprocal_correspondences", .bool false),
  ("s2s/gicp/rotation_epsilon", .double 0.002),
  ("s2s/gicp/correspondence_randomness", .int 20),
  ("s2s/gicp/maximum_optimizer_iterations", .int 20),
  ("s2s/gicp/translation_gradient_tolerance", .double 0.01),
  ("s2s/gicp/rotation_gradient_tolerance", .double 0.01),
  ("s2s/lsq/rotation_epsilon", .double 0.002),
  ("s2s/lsq/initial_lambda_factor", .double 0.000000001),
  ("s2s/lsq/debug_print", .bool false),
  ("s2s/fast_gicp/num_threads", .int 4),
  ("s2s/fast_gicp/correspondence_randomness", .int 20),
  ("s2s/fast_gicp/regularization_method", .string "PLANE"),
  ("s2s/fast_vgicp/resolution", .double 1),
  ("s2s/fast_vgicp/voxel_accumulation_mode", .string "ADDITIVE"),
  ("s2s/fast_vgicp/neighbor_search_method", .string "DIRECT1"),
  ("s2s/ndt/resolution", .double 1),
  ("s2s/ndt/step_size", .double 0.1),
  ("s2s/ndt/outlier_ratio", .double 0.55),
  ("s2m/enabled", .bool true),
  ("s2m/method", .string "fast_gicp"),
  ("s2m/base/maximum_iterations", .int 30),
  ("s2m/base/ransac_iterations", .int 0),
  ("s2m/base/ransac_outlier_rejection_threshold", .double 0.05),
  ("s2m/base/max_correspondence_distance", .double 0.5),
  ("s2m/base/transformation_epsilon", .double 0.001),
  ("s2m/base/transformation_rotation_epsilon", .double 0.0001),
  ("s2m/base/euclidean_fitness_epsilon", .double 0.0001),
  ("s2m/icp/use_reciprocal_correspondences", .bool false),
  ("s2m/gicp/rotation_epsilon", .double 0.002),
  ("s2m/gicp/correspondence_randomness", .int 20),
  ("s2m/gicp/maximum_optimizer_iterations", .int 20),
  ("s2m/gicp/translation_gradient_tolerance", .double 0.01),
  ("s2m/gicp/rotation_gradient_tolerance", .double 0.01),
  ("s2m/lsq/rotation_epsilon", .double 0.002),
  ("s2m/lsq/initial_lambda_factor", .double 0.000000001),
  ("s2m/lsq/debug_print", .bool false),
  ("s2m/fast_gicp/num_threads", .int 4),
  ("s2m/fast_gicp/correspondence_randomness", .int 20),
  ("s2m/fast_gicp/regularization_method", .string "PLANE"),
  ("s2m/fast_vgicp/resolution", .double 1),
  ("s2m/fast_vgicp/voxel_accumulation_mode", .string "ADDITIVE"),
  ("s2m/fast_vgicp/neighbor_search_method", .string "DIRECT1"),
  ("s2m/ndt/resolution", .double 1),
  ("s2m/ndt/step_size", .double 0.1),
  ("s2m/ndt/outlier_ratio", .double 0.55),
  ("map_frame_id", .string "map"),
  ("mapping/frame_extraction_method", .string "NEARBY"),
  ("mapping/frame_extraction_number", .int 20),
  ("mapping/distance_threshold", .double 0.1),
  ("mapping/rotation_threshold", .double 0.05235987755982988),
  ("mapping/voxel_grid_filter/enabled_local", .bool true),
  ("mapping/voxel_grid_filter/enabled_global", .bool true),
  ("mapping/voxel_grid_filter/leaf_size", .double 0.05),
  ("mapping/voxel_grid_filter/minimum_points_number_per_voxel", .int 1),
  ("stereo_factors/noise/left_x", .double 5),
  ("stereo_factors/noise/right_x", .double 5),
  ("stereo_factors/noise/y", .double 10),
  ("stereo_factors/robust/enabled", .bool true),
  ("stereo_factors/robust/type", .string "huber"),
  ("stereo_factors/robust/cauchy/k", .double 0.1),
  ("stereo_factors/robust/cauchy/reweight_scheme", .string "BLOCK"),
  ("stereo_factors/robust/dcs/c", .double 1),
  ("stereo_factors/robust/dcs/reweight_scheme", .string "BLOCK"),
  ("stereo_factors/robust/fair/c", .double 1.3998),
  ("stereo_factors/robust/fair/reweight_scheme", .string "BLOCK"),
  ("stereo_factors/robust/geman_mcclure/c", .double 1),
  ("stereo_factors/robust/geman_mcclure/reweight_scheme", .string "BLOCK"),
  ("stereo_factors/robust/huber/k", .double 1.345),
  ("stereo_factors/robust/huber/reweight_scheme", .string "BLOCK"),
  ("stereo_factors/robust/l2_with_dead_zone/k", .double 1),
  ("stereo_factors/robust/l2_with_dead_zone/reweight_scheme", .string "BLOCK"),
  ("stereo_factors/robust/tukey/c", .double 4.6851),
  ("stereo_factors/robust/tukey/reweight_scheme", .string "BLOCK"),
  ("stereo_factors/robust/welsch/c", .double 2.9846),
  ("stereo_factors/robust/welsch/reweight_scheme", .string "BLOCK"),
  ("stereo_factors/left_cam_frame", .string "stereo"),
  ("stereo_tracking/only_graph_frames", .bool true),
  ("stereo_tracking/new_feature_dist_threshold", .double 5),
  ("stereo_tracking/detector/type", .string "GFTT"),
  ("stereo_tracking/detector/fast/threshold", .int 10),
  ("stereo_tracking/detector/fast/nonmax_suppression", .bool true),
  ("stereo_tracking/detector/fast/type", .string "TYPE_9_16"),
  ("stereo_tracking/detector/gftt/max_corners", .int 1000),
  ("stereo_tracking/detector/gftt/quality_level", .double 0.01),
  ("stereo_tracking/detector/gftt/min_distance", .double 1),
  ("stereo_tracking/detector/gftt/block_size", .int 3),
  ("stereo_tracking/detector/gftt/use_harris_detector", .bool false),
  ("stereo_tracking/detector/gftt/k", .double 0.04),
  ("stereo_tracking/detector/orb/num_features", .int 500),
  ("stereo_tracking/detector/orb/scale_factor", .double 1.2),
  ("stereo_tracking/detector/orb/num_levels", .int 8),
  ("stereo_tracking/detector/orb/edge_threshold", .int 31),
  ("stereo_tracking/detector/orb/first_level", .int 0),
  ("stereo_tracking/detector/orb/wta_k", .int 2),
  ("stereo_tracking/detector/orb/score_type", .string "HARRIS_SCORE"),
  ("stereo_tracking/detector/orb/patch_size", .int 31),
  ("stereo_tracking/detector/orb/fast_threshold", .int 20),
  ("stereo_tracking/detector/sift/num_features", .int 10),
  ("stereo_tracking/detector/sift/num_octave_layers", .int 3),
  ("stereo_tracking/detector/sift/contrast_threshold", .double 0.04),
  ("stereo_tracking/detector/sift/edge_threshold", .double 10),
  ("stereo_tracking/detector/sift/sigma", .double 1.6),
  ("stereo_tracking/stereo_match_filter/vertical_pixel_threshold", .double 1),
  ("stereo_tracking/stereo_distance_filter/enabled", .bool false),
  ("stereo_tracking/stereo_distance_filter/max_distance", .double 1000000000),
  ("stereo_tracking/stereo_distance_filter/min_distance", .double 0),
  ("stereo_tracking/sparse_optical_flow/type", .string "PyrLK"),
  ("stereo_tracking/sparse_optical_flow/pyrlk/win_size", .ints [21, 21]),
  ("stereo_tracking/sparse_optical_flow/pyrlk/max_level", .int 3),
  ("stereo_tracking/sparse_optical_flow/pyrlk/term_criteria/type", .string "COUNT+EPS"),
  ("stereo_tracking/sparse_optical_flow/pyrlk/term_criteria/max_count", .int 30),
  ("stereo_tracking/sparse_optical_flow/pyrlk/term_criteria/epsilon", .double 0.01),
  ("stereo_tracking/sparse_optical_flow/pyrlk/flags", .int 0),
  ("stereo_tracking/sparse_optical_flow/pyrlk/min_eig_threshold", .double 0.0001),
  ("stereo_tracking/stereo_keypoint_matcher/cost_function", .string "SSD"),
  ("stereo_tracking/stereo_keypoint_matcher/window_size/width", .int 7),
  ("stereo_tracking/stereo_keypoint_matcher/window_size/height", .int 7),
  ("stereo_tracking/stereo_keypoint_matcher/cost_threshold", .double 1000000000),
  ("stereo_tracking/stereo_keypoint_matcher/vertical_pixel_threshold", .double 1),
  ("stereo_tracking/stereo_keypoint_matcher/matching_filter", .string "RATIO_TEST"),
  ("stereo_tracking/stereo_keypoint_matcher/ratio", .double 0.1)]

/-- serpent/config/debug_default.yaml. -/
def shippedDebug : List (String × Value) := [
  ("debug/registration/check_normals", .bool false),
  ("debug/registration/publish_clouds", .bool false),
  ("debug/registration/publish_clouds_alt", .bool false),
  ("debug/stereo/print_stats", .bool false),
  ("debug/stereo/publish_stats", .bool false),
  ("debug/stereo/publish_intermediate_results", .bool false),
  ("debug/stereo/publish_points", .bool false),
  ("debug/stereo/rich_keypoints", .bool false),
  ("debug/stereo/rich_matches", .bool false),
  ("debug/optimisation/publish_stereo_points", .bool false),
  ("debug/optimisation/on_crash/save", .bool false),
  ("debug/optimisation/on_crash/print", .bool true),
  ("debug/optimisation/on_crash/print_options/verbose", .bool false),
  ("debug/optimisation/on_crash/print_options/min_error", .double 0)]

/-- All options of the configuration files, except the frames. -/
def shipped : List (String × Value) :=
  shippedFilter ++ (shippedFormat ++ (shippedMission ++ (shippedNormalEstimation ++ (shippedTuning ++ shippedDebug))))

/-- The parameter server after the launch file has loaded the configuration files. -/
def shippedServer : Server := fun k => (shipped.find? fun e => e.1 = k).map Prod.snd

/-- The frames of serpent/config/robot_default.yaml. -/
def shippedFrames (f : String) : Bool := decide (f ∈ ["base_link", "imu", "lidar", "stereo"])

/-- Options of the configuration files that no source reads. -/
def neverRead : List String := [
  "statistical_outlier_removal/mean_k",
  "statistical_outlier_removal/stddev_mul_thresh",
  "s2s/gicp/translation_gradient_tolerance",
  "s2s/gicp/rotation_gradient_tolerance",
  "s2m/gicp/translation_gradient_tolerance",
  "s2m/gicp/rotation_gradient_tolerance",
  "stereo_tracking/detector/sift/contrast_threshold",
  "stereo_tracking/sparse_optical_flow/pyrlk/win_size",
  "stereo_tracking/sparse_optical_flow/pyrlk/max_level",
  "stereo_tracking/sparse_optical_flow/pyrlk/term_criteria/type",
  "stereo_tracking/sparse_optical_flow/pyrlk/term_criteria/max_count",
  "stereo_tracking/sparse_optical_flow/pyrlk/term_criteria/epsilon",
  "stereo_tracking/sparse_optical_flow/pyrlk/flags",
  "stereo_tracking/sparse_optical_flow/pyrlk/min_eig_threshold"]

/-- Options whose value in the configuration files is not the one that is taken if the option is left out. -/
def otherwiseIfLeftOut : List String := [
  "random_sample_filter/sample_size",
  "range_filter/min",
  "range_filter/max",
  "barometer/noise/overwrite",
  "registration_covariance/point_covariance/method",
  "s2s/base/maximum_iterations",
  "s2s/base/max_correspondence_distance",
  "s2s/base/transformation_epsilon",
  "s2s/base/transformation_rotation_epsilon",
  "s2s/base/euclidean_fitness_epsilon",
  "s2m/base/maximum_iterations",
  "s2m/base/max_correspondence_distance",
  "s2m/base/transformation_epsilon",
  "s2m/base/transformation_rotation_epsilon",
  "s2m/base/euclidean_fitness_epsilon",
  "mapping/frame_extraction_number",
  "mapping/distance_threshold",
  "mapping/rotation_threshold",
  "stereo_tracking/only_graph_frames",
  "stereo_tracking/detector/type",
  "stereo_tracking/stereo_distance_filter/max_distance",
  "stereo_tracking/stereo_keypoint_matcher/cost_function",
  "stereo_tracking/stereo_keypoint_matcher/window_size/width",
  "stereo_tracking/stereo_keypoint_matcher/window_size/height",
  "stereo_tracking/stereo_keypoint_matcher/cost_threshold",
  "stereo_tracking/stereo_keypoint_matcher/ratio",
  "debug/stereo/rich_keypoints",
  "debug/stereo/rich_matches"]

end Params

end Serpent
