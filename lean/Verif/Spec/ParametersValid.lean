import Verif.Spec.Parameters

/-!
# Specification: which options are valid

Written with the values of options (set, or the default), not with the components. Words are compared with the lists in the comments
of the configuration files.
-/

namespace Serpent

namespace Params

/-- Minimum numbers of points in a voxel: what fits into an unsigned integer after truncation. -/
def CountValid (x : ℚ) : Prop := -1 < x ∧ x < 2 ^ 32

/-- The filters of pointclouds. -/
structure FilterValid (p : Server) : Prop where
  voxel : p.bool "voxel_grid_filter/enabled" true = true →
    CountValid (p.double "voxel_grid_filter/minimum_points_number_per_voxel" 1)
  sample : p.bool "random_sample_filter/enabled" false = true →
    0 ≤ p.int "random_sample_filter/sample_size" 3000 ∧ 0 ≤ p.int "random_sample_filter/random_seed" 0

/-- Mapping. -/
structure MappingValid (p : Server) : Prop where
  number : 1 ≤ p.int "mapping/frame_extraction_number" 10
  method : p.str "mapping/frame_extraction_method" "NEARBY" ∈ ["NEARBY", "PAST"]
  voxel : CountValid (p.double "mapping/voxel_grid_filter/minimum_points_number_per_voxel" 1)

/-- A registration method; the words are only looked at by the methods that use them. -/
structure MethodValid (p : Server) (pre : String) : Prop where
  method : p.str (pre ++ "method") "fast_gicp" ∈ ["icp", "gicp", "fast_gicp", "fast_gicp_st", "fast_vgicp", "ndt"]
  regularization : p.str (pre ++ "method") "fast_gicp" ∈ ["fast_gicp", "fast_gicp_st", "fast_vgicp"] →
    p.str (pre ++ "fast_gicp/regularization_method") "PLANE" ∈ ["NONE", "MIN_EIG", "NORMALIZED_MIN_EIG", "PLANE", "FROBENIUS"]
  accumulation : p.str (pre ++ "method") "fast_gicp" = "fast_vgicp" →
    p.str (pre ++ "fast_vgicp/voxel_accumulation_mode") "ADDITIVE" ∈ ["ADDITIVE", "ADDITIVE_WEIGHTED", "MULTIPLICATIVE"]
  search : p.str (pre ++ "method") "fast_gicp" = "fast_vgicp" →
    p.str (pre ++ "fast_vgicp/neighbor_search_method") "DIRECT1" ∈ ["DIRECT27", "DIRECT7", "DIRECT1", "DIRECT_RADIUS"]

/-- The covariance of registrations. -/
structure CovarianceValid (p : Server) : Prop where
  method : p.str "registration_covariance/method" "CENSI" ∈ ["CONSTANT", "CENSI", "LLS"]
  point : p.str "registration_covariance/point_covariance/method" "RANGE" ∈ ["CONSTANT", "VOXEL_SIZE", "RANGE", "RANGE_BIAS"]
  model : p.str "registration_covariance/method" "CENSI" ≠ "CONSTANT" → p.str "registration_covariance/model"
    "POINT_TO_PLANE_LINEARISED" ∈ ["POINT_TO_POINT_LINEARISED", "POINT_TO_POINT_NONLINEAR", "POINT_TO_PLANE_LINEARISED",
      "POINT_TO_PLANE_NONLINEAR"]
  voxel : p.str "registration_covariance/method" "CENSI" ≠ "CONSTANT" →
    p.str "registration_covariance/point_covariance/method" "RANGE" = "VOXEL_SIZE" → p.bool "voxel_grid_filter/enabled" true = true
  range : p.str "registration_covariance/method" "CENSI" ≠ "CONSTANT" →
    p.str "registration_covariance/point_covariance/method" "RANGE" ∈ ["RANGE", "RANGE_BIAS"] →
    p.str "registration_covariance/method" "CENSI" ≠ "LLS" ∧
      0 < p.double "registration_covariance/point_covariance/range_noise" 0.05
  bias : p.str "registration_covariance/method" "CENSI" ≠ "CONSTANT" →
    p.str "registration_covariance/point_covariance/method" "RANGE" = "RANGE_BIAS" →
    0 < p.double "registration_covariance/point_covariance/range_bias_noise" 0.02

/-- The modules for pointclouds. -/
structure LidarValid (frames : String → Bool) (p : Server) : Prop where
  filter : FilterValid p
  normals : p.str "normal_estimation/method" "knn" ∈ ["knn", "radius"]
  mapping : MappingValid p
  s2s : MethodValid p "s2s/"
  s2m : p.bool "s2m/enabled" true = true → MethodValid p "s2m/"
  covariance : CovarianceValid p
  frame : frames "lidar" = true

/-- The tracking of features in stereo images. -/
structure StereoValid (cv : OpenCv) (p : Server) : Prop where
  detector : p.str "stereo_tracking/detector/type" "ORB" ∈ ["FAST", "GFTT", "ORB", "SIFT"]
  fast : p.str "stereo_tracking/detector/type" "ORB" = "FAST" →
    p.str "stereo_tracking/detector/fast/type" "TYPE_9_16" ∈ ["TYPE_5_8", "TYPE_7_12", "TYPE_9_16"]
  orb : p.str "stereo_tracking/detector/type" "ORB" = "ORB" →
    p.str "stereo_tracking/detector/orb/score_type" "HARRIS_SCORE" ∈ ["HARRIS_SCORE", "FAST_SCORE"]
  sift : p.str "stereo_tracking/detector/type" "ORB" = "SIFT" → 4 ≤ cv.major ∧ 4 ≤ cv.minor
  flow : p.str "stereo_tracking/sparse_optical_flow/type" "PyrLK" = "PyrLK"
  window : 2 ≤ (p.ints "stereo_tracking/sparse_optical_flow/win_size" [21, 21]).length
  criteria : p.str "stereo_tracking/sparse_optical_flow/term_criteria/type" "COUNT+EPS" ∈
    ["COUNT", "MAX_ITER", "EPS", "COUNT+EPS", "MAX_ITER+EPS"]
  filter : p.str "stereo_tracking/stereo_keypoint_matcher/matching_filter" "RATIO_TEST" ∈
    ["UNIDIRECTIONAL", "BIDIRECTIONAL", "RATIO_TEST"]
  cost : p.str "stereo_tracking/stereo_keypoint_matcher/cost_function" "SAD" ∈ ["SAD", "SSD", "ZMSAD", "LSSAD", "NNCC"]
  width : 1 ≤ p.int "stereo_tracking/stereo_keypoint_matcher/window_size/width" 3 ∧
    p.int "stereo_tracking/stereo_keypoint_matcher/window_size/width" 3 % 2 = 1
  height : 1 ≤ p.int "stereo_tracking/stereo_keypoint_matcher/window_size/height" 3 ∧
    p.int "stereo_tracking/stereo_keypoint_matcher/window_size/height" 3 % 2 = 1
  ratio : 0 < p.double "stereo_tracking/stereo_keypoint_matcher/ratio" 0.5 ∧
    p.double "stereo_tracking/stereo_keypoint_matcher/ratio" 0.5 < 1

/-- The front end. -/
structure FrontendValid (frames : String → Bool) (p : Server) : Prop where
  frames : frames "base_link" = true ∧ frames "imu" = true
  deskew : p.bool "optimisation/factors/stereo" true = true →
    p.bool "mdc/translation" true = true ∧ p.bool "mdc/rotation" true = true
  barometer : p.bool "barometer/noise/overwrite" false = true → p.double "barometer/noise/barometer" 0.01 ≠ 0

/-- The names of the robust estimators that have a scheme. -/
def schemed : List String := ["cauchy", "dcs", "fair", "geman_mcclure", "huber", "l2_with_dead_zone", "tukey", "welsch"]

/-- The back end. There is no condition on the name of the robust estimator. -/
structure BackendValid (frames : String → Bool) (p : Server) : Prop where
  frame : frames "imu" = true
  optimization : p.str "isam2/optimization" "GaussNewton" ∈ ["GaussNewton", "Dogleg"]
  camera : p.bool "optimisation/factors/stereo" true = true → frames (p.str "stereo_factors/left_cam_frame" "stereo") = true
  scheme : p.bool "optimisation/factors/stereo" true = true → p.bool "stereo_factors/robust/enabled" true = true →
    ∀ w ∈ schemed, p.str "stereo_factors/robust/type" "huber" = w →
      p.str ("stereo_factors/robust/" ++ w ++ "/reweight_scheme") "BLOCK" ∈ ["BLOCK", "SCALAR"]
  barometer : p.bool "optimisation/factors/barometer" true = true → p.double "barometer/noise/barometer_bias" 0.000001 ≠ 0
  marginalisation : p.bool "optimisation/marginalisation/enabled" false = true →
    0 ≤ p.int "optimisation/marginalisation/window_size" 100

/-- The options that the node accepts. -/
structure Valid (cv : OpenCv) (frames : String → Bool) (p : Server) : Prop where
  frontend : FrontendValid frames p
  backend : BackendValid frames p
  format : p.str "pointcloud_type" "OUSTER" ∈ ["OUSTER", "CUSTOM"]
  lidar : p.bool "optimisation/factors/registration" true = true → LidarValid frames p
  stereo : p.bool "optimisation/factors/stereo" true = true → StereoValid cv p
  threads : 1 ≤ p.int "threads" 4

end Params

end Serpent
