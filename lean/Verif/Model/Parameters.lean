import Verif.Model.LidarOptions
import Verif.Model.LidarPipeline
import Verif.Model.Registration
import Verif.Model.Mapping
import Verif.Model.Stereo

/-!
# Model of the options: how every component reads its parameters

The nodes of serpent read all options from the ROS parameter server, under the name space `serpent`, mostly in constructors. Sources:
serpent/src/nodes/{node,frontend_node,backend_node,stereo_pipeline_node}.cpp, serpent/src/front_end/frontend.cpp ("frontend.cpp"),
serpent/src/back_end/optimisation.cpp ("optimisation.cpp"), serpent/src/front_end/lidar/pointcloud_filter.cpp ("filter.cpp"),
serpent/src/front_end/lidar/pointcloud_formatter.cpp, serpent/src/front_end/stereo/stereo_factor_finder.cpp ("finder.cpp"),
serpent/include/serpent/front_end/lidar/{registration-inl.hpp, registration_methods-inl.hpp, pointcloud_normal_estimation-inl.hpp},
serpent/include/serpent/mapping/mapping-inl.hpp.

Simplifications (apply to the whole file):
* A parameter server is a function from names to values; it does not change while a node runs. `body_frames` is read by
  `eigen_ros::BodyFrames` (Model/BodyFrames.lean); here `frames f` says whether it has frame `f`, and frames are not dynamic.
* Doubles and floats are rational numbers. Integers are unbounded, except where they are converted to `unsigned int`.
* A component is what its constructor hands to PCL, OpenCV, GTSAM and fast_gicp, together with the members it sets. Parameters read
  later (in callbacks) are members here. Topics and publishers are not part of it.
-/

namespace Serpent

namespace Params

/-- A value of the parameter server (`XmlRpc::XmlRpcValue`). Arrays are arrays of whole numbers; structures are not modelled,
because a structure is a set of longer names. Read by the constructors cited below. -/
inductive Value where
  | int (n : Int)
  | double (x : ℚ)
  | bool (b : Bool)
  | string (s : String)
  | ints (l : List Int)
deriving DecidableEq, Repr

/-- The parameter server: what is set under the names below `serpent/`. Read by the constructors cited below. -/
abbrev Server := String → Option Value

/-- Setting a parameter. No counterpart in /repo: what launch files do. -/
def Server.set (p : Server) (k : String) (v : Value) : Server := fun n => if n = k then some v else p n

/-- Deleting a parameter. No counterpart in /repo: what launch files do. -/
def Server.erase (p : Server) (k : String) : Server := fun n => if n = k then none else p n

/-- The largest double. `std::numeric_limits<double>::max()`, registration_methods-inl.hpp:8-21. -/
def doubleMax : ℚ := 2 ^ 1024 - 2 ^ 971

/-- The largest float. `std::numeric_limits<float>::max()`, filter.cpp:60-63. -/
def floatMax : ℚ := 2 ^ 128 - 2 ^ 104

/-- `M_PI / 6.0`, a double: 4716158501352293 / 2 ^ 53 (mapping-inl.hpp:62). -/
def piSixth : ℚ := 4716158501352293 / 2 ^ 53

/-- Conversion of a double to an integer: towards zero. In filter.cpp:29-33. -/
def truncate (x : ℚ) : Int := if 0 ≤ x then x.floor else x.ceil

/-! ### `ros::NodeHandle::param`: the value of the parameter if it is set and has the right type, and the default otherwise -/

/-- `param<bool>` (roscpp, `getImpl` of param.cpp): only a boolean. -/
def Server.bool (p : Server) (k : String) (d : Bool) : Bool :=
  match p k with
  | some (.bool b) => b
  | _ => d

/-- `param<std::string>`: only a string. Called by the constructors cited below. -/
def Server.str (p : Server) (k : String) (d : String) : String :=
  match p k with
  | some (.string s) => s
  | _ => d

/-- `param<double>` and `param<float>`: a double or an integer. Called by the constructors cited below. -/
def Server.double (p : Server) (k : String) (d : ℚ) : ℚ :=
  match p k with
  | some (.double x) => x
  | some (.int n) => n
  | _ => d

/-- `param<int>`: an integer, or a double rounded by `fmod(d, 1.0) < 0.5 ? floor(d) : ceil(d)`. Called by the constructors cited
below. -/
def Server.int (p : Server) (k : String) (d : Int) : Int :=
  match p k with
  | some (.int n) => n
  | some (.double x) => if x - truncate x < 1 / 2 then x.floor else x.ceil
  | _ => d

/-- `param<std::vector<int>>`: an array. Called in finder.cpp:240-291. -/
def Server.ints (p : Server) (k : String) (d : List Int) : List Int :=
  match p k with
  | some (.ints l) => l
  | _ => d

/-- Conversion of a double to `unsigned int`, in calls of PCL: undefined if the value is out of range after truncation. In
filter.cpp:29-33 and 83-93. -/
def toUnsigned (x : ℚ) : Outcome Nat :=
  if 0 ≤ truncate x ∧ truncate x < 2 ^ 32 then .ok (truncate x).toNat else .ub

/-- Conversion of an `int` to `unsigned int`: modulo 2^32. In the constructors cited below. -/
def wrapUnsigned (n : Int) : Nat := (n % 2 ^ 32).toNat

/-! ### The filters of pointclouds -/

/-- `pcl::VoxelGrid`: leaf size (the same in all directions) and `setMinimumPointsNumberPerVoxel`. Set up in filter.cpp:29-33.
-/
structure Voxel where
  leafSize : ℚ
  minimumPoints : Nat
deriving DecidableEq

/-- `pcl::CropBox`. Set up in filter.cpp:43-51. -/
structure Body where
  min : ℚ × ℚ × ℚ
  max : ℚ × ℚ × ℚ
  translation : ℚ × ℚ × ℚ
  rotation : ℚ × ℚ × ℚ
deriving DecidableEq

/-- `pcl::PassThrough` on the range. Set up in filter.cpp:60-63. -/
structure Range where
  min : ℚ
  max : ℚ
deriving DecidableEq

/-- `pcl::StatisticalOutlierRemoval`. Set up in filter.cpp:72-74. -/
structure Outliers where
  meanK : Int
  stddevMulThresh : ℚ
deriving DecidableEq

/-- `pcl::RandomSample`. Set up in filter.cpp:83-93. -/
structure Sample where
  size : Nat
  seed : Nat
deriving DecidableEq

/-- The filters that are enabled. Set up in filter.cpp:10-99. -/
structure Filter where
  voxel : Option Voxel
  body : Option Body
  range : Option Range
  outliers : Option Outliers
  sample : Option Sample
deriving DecidableEq

/-- filter.cpp:29-33. -/
def voxelParams (p : Server) : Outcome (Option Voxel) :=
  if p.bool "voxel_grid_filter/enabled" true then
    toUnsigned (p.double "voxel_grid_filter/minimum_points_number_per_voxel" 1) >>= fun m =>
    .ok (some ⟨p.double "voxel_grid_filter/leaf_size" 0.1, m⟩)
  else .ok none

/-- filter.cpp:43-51. -/
def bodyParams (p : Server) : Option Body :=
  if p.bool "body_filter/enabled" false then
    some {
      min := (p.double "body_filter/min/x" 0, p.double "body_filter/min/y" 0, p.double "body_filter/min/z" 0)
      max := (p.double "body_filter/max/x" 0, p.double "body_filter/max/y" 0, p.double "body_filter/max/z" 0)
      translation := (p.double "body_filter/translation/x" 0, p.double "body_filter/translation/y" 0,
        p.double "body_filter/translation/z" 0)
      rotation := (p.double "body_filter/rotation/rx" 0, p.double "body_filter/rotation/ry" 0,
        p.double "body_filter/rotation/rz" 0) }
  else none

/-- filter.cpp:60-63. -/
def rangeParams (p : Server) : Option Range :=
  if p.bool "range_filter/enabled" true then
    some ⟨p.double "range_filter/min" 0, p.double "range_filter/max" doubleMax⟩
  else none

/-- filter.cpp:72-74. -/
def outlierParams (p : Server) : Option Outliers :=
  if p.bool "statistical_outlier_removal/enabled" false then
    some ⟨p.int "statistical_outlier_removal_filter/mean_k" 1,
      p.double "statistical_outlier_removal_filter/stddev_mul_thresh" 0⟩
  else none

/-- filter.cpp:83-93. -/
def sampleParams (p : Server) : Outcome (Option Sample) :=
  if p.bool "random_sample_filter/enabled" false then
    if p.int "random_sample_filter/sample_size" 3000 < 0 then .throws
    else if p.int "random_sample_filter/random_seed" 0 < 0 then .throws
    else .ok (some ⟨wrapUnsigned (p.int "random_sample_filter/sample_size" 3000),
      wrapUnsigned (p.int "random_sample_filter/random_seed" 0)⟩)
  else .ok none

/-- Constructor of `PointcloudFilter`, filter.cpp:10-99. -/
def filter (p : Server) : Outcome Filter :=
  voxelParams p >>= fun v =>
  sampleParams p >>= fun s =>
  .ok ⟨v, bodyParams p, rangeParams p, outlierParams p, s⟩

/-- The parameters of the model of the subscriptions (Model/LidarPipeline.lean), filter.cpp:12-16, 84 and 88. -/
def filterConfig (p : Server) : Lidar.FilterConfig where
  voxel := p.bool "voxel_grid_filter/enabled" true
  body := p.bool "body_filter/enabled" false
  range := p.bool "range_filter/enabled" true
  outliers := p.bool "statistical_outlier_removal/enabled" false
  sample := p.bool "random_sample_filter/enabled" false
  sampleSize := p.int "random_sample_filter/sample_size" 3000
  seed := p.int "random_sample_filter/random_seed" 0

/-! ### The formatter and the estimation of normals -/

/-- Members of `PointcloudFormatter`; `maxTime`: the threshold, if the filter on the time field is enabled. Set in
pointcloud_formatter.cpp:18-24. -/
structure Formatter where
  sensor : Lidar.SensorType
  maxTime : Option ℚ
  removeFirst : Bool
deriving DecidableEq

/-- Constructor of `PointcloudFormatter`, pointcloud_formatter.cpp:18-24. -/
def formatter (p : Server) : Outcome Formatter :=
  Lidar.toSensorType (p.str "pointcloud_type" "OUSTER") >>= fun t =>
  .ok ⟨t, if p.bool "time_field_filter/enabled" false then some (p.double "time_field_filter/max" 0.1) else none,
    p.bool "first_pointcloud_removal/enabled" false⟩

/-- The neighbours that a normal is estimated from: `setKSearch`, `setRadiusSearch`. In
pointcloud_normal_estimation-inl.hpp:30-37. -/
inductive Neighbours where
  | nearest (k : Int)
  | within (radius : ℚ)
deriving DecidableEq

/-- `pcl::NormalEstimationOMP`. Set up in pointcloud_normal_estimation-inl.hpp:13-38. -/
structure Normals where
  threads : Nat
  viewpoint : ℚ × ℚ × ℚ
  neighbours : Neighbours
deriving DecidableEq

/-- pointcloud_normal_estimation-inl.hpp:30-37. -/
def neighbourParams (p : Server) : Outcome Neighbours :=
  if p.str "normal_estimation/method" "knn" = "knn" then .ok (.nearest (p.int "normal_estimation/k" 30))
  else if p.str "normal_estimation/method" "knn" = "radius" then .ok (.within (p.double "normal_estimation/radius" 1))
  else .throws

/-- Constructor of `PointcloudNormalEstimation`, pointcloud_normal_estimation-inl.hpp:13-38. -/
def normals (p : Server) : Outcome Normals :=
  neighbourParams p >>= fun n =>
  .ok ⟨wrapUnsigned (p.int "normal_estimation/threads" 1),
    (p.double "normal_estimation/viewpoint/x" 0, p.double "normal_estimation/viewpoint/y" 0,
      p.double "normal_estimation/viewpoint/z" 0), n⟩

/-! ### Mapping -/

/-- Members of `Mapping` and its `pcl::VoxelGrid`. Set in mapping-inl.hpp:59-90. -/
structure Map where
  mapFrame : String
  distanceThreshold : ℚ
  rotationThreshold : ℚ
  method : Mapping.Method
  number : Nat
  voxelLocal : Bool
  voxelGlobal : Bool
  voxel : Voxel
deriving DecidableEq

/-- Constructor of `Mapping`, mapping-inl.hpp:59-90. -/
def mapping (p : Server) : Outcome Map :=
  if p.int "mapping/frame_extraction_number" 10 < 1 then .throws
  else
    Mapping.toMethod (p.str "mapping/frame_extraction_method" "NEARBY") >>= fun m =>
    toUnsigned (p.double "mapping/voxel_grid_filter/minimum_points_number_per_voxel" 1) >>= fun u =>
    .ok {
      mapFrame := p.str "map_frame_id" "map"
      distanceThreshold := p.double "mapping/distance_threshold" 1
      rotationThreshold := p.double "mapping/rotation_threshold" piSixth
      method := m
      number := (p.int "mapping/frame_extraction_number" 10).toNat
      voxelLocal := p.bool "mapping/voxel_grid_filter/enabled_local" true
      voxelGlobal := p.bool "mapping/voxel_grid_filter/enabled_global" true
      voxel := ⟨p.double "mapping/voxel_grid_filter/leaf_size" 0.05, u⟩ }

/-! ### Registration -/

/-- The setters of `pcl::Registration`. Called in registration_methods-inl.hpp:8-21. -/
structure Base where
  maximumIterations : Int
  ransacIterations : Int
  ransacOutlierThreshold : ℚ
  maxCorrespondenceDistance : ℚ
  transformationEpsilon : ℚ
  transformationRotationEpsilon : ℚ
  euclideanFitnessEpsilon : ℚ
deriving DecidableEq

/-- `fast_gicp::RegularizationMethod`. Chosen in registration_methods.cpp:5-18. -/
inductive Regularization where
  | none | minEig | normalizedMinEig | plane | frobenius
deriving DecidableEq, Repr

/-- `fast_gicp::VoxelAccumulationMode`. Chosen in registration_methods.cpp:20-29. -/
inductive Accumulation where
  | additive | additiveWeighted | multiplicative
deriving DecidableEq, Repr

/-- `fast_gicp::NeighborSearchMethod`. Chosen in registration_methods.cpp:31-42. -/
inductive NeighborSearch where
  | direct27 | direct7 | direct1 | directRadius
deriving DecidableEq, Repr

/-- `to_regularization_method`, registration_methods.cpp:5-18. -/
def toRegularization (s : String) : Outcome Regularization :=
  if s = "NONE" then .ok .none
  else if s = "MIN_EIG" then .ok .minEig
  else if s = "NORMALIZED_MIN_EIG" then .ok .normalizedMinEig
  else if s = "PLANE" then .ok .plane
  else if s = "FROBENIUS" then .ok .frobenius
  else .throws

/-- `to_voxel_accumulation_mode`, registration_methods.cpp:20-29. -/
def toAccumulation (s : String) : Outcome Accumulation :=
  if s = "ADDITIVE" then .ok .additive
  else if s = "ADDITIVE_WEIGHTED" then .ok .additiveWeighted
  else if s = "MULTIPLICATIVE" then .ok .multiplicative
  else .throws

/-- `to_neighbor_search_method`, registration_methods.cpp:31-42. -/
def toNeighborSearch (s : String) : Outcome NeighborSearch :=
  if s = "DIRECT27" then .ok .direct27
  else if s = "DIRECT7" then .ok .direct7
  else if s = "DIRECT1" then .ok .direct1
  else if s = "DIRECT_RADIUS" then .ok .directRadius
  else .throws

/-- The setters of `fast_gicp::FastGICP` and its base class `LsqRegistration`. Called in registration_methods-inl.hpp:42-59. -/
structure FastGicp where
  base : Base
  rotationEpsilon : ℚ
  initialLambdaFactor : ℚ
  debugPrint : Bool
  numThreads : Int
  correspondenceRandomness : Int
  regularization : Regularization
deriving DecidableEq

/-- The registration objects made by `registration_method`. Source: registration_methods-inl.hpp:90-123. -/
inductive Method where
  | icp (base : Base) (reciprocal : Bool)
  | gicp (base : Base) (reciprocal : Bool) (rotationEpsilon : ℚ) (correspondenceRandomness maximumOptimizerIterations : Int)
  | fastGicp (g : FastGicp)
  | fastGicpSt (g : FastGicp)
  | fastVgicp (g : FastGicp) (resolution : ℚ) (mode : Accumulation) (search : NeighborSearch)
  | ndt (base : Base) (resolution stepSize outlierRatio : ℚ)
deriving DecidableEq

/-- `set_registration_parameters`, registration_methods-inl.hpp:8-21. -/
def baseParams (p : Server) (pre : String) : Base where
  maximumIterations := p.int (pre ++ "base/maximum_iterations") 10
  ransacIterations := p.int (pre ++ "base/ransac_iterations") 0
  ransacOutlierThreshold := p.double (pre ++ "base/ransac_outlier_rejection_threshold") 0.05
  maxCorrespondenceDistance := p.double (pre ++ "base/max_correspondence_distance") doubleMax
  transformationEpsilon := p.double (pre ++ "base/transformation_epsilon") 0
  transformationRotationEpsilon := p.double (pre ++ "base/transformation_rotation_epsilon") 0
  euclideanFitnessEpsilon := p.double (pre ++ "base/euclidean_fitness_epsilon") 0

/-- `set_lsq_parameters` and `set_fast_gicp_parameters`, registration_methods-inl.hpp:42-59. -/
def fastGicpParams (p : Server) (pre : String) : Outcome FastGicp :=
  toRegularization (p.str (pre ++ "fast_gicp/regularization_method") "PLANE") >>= fun r =>
  .ok {
    base := baseParams p pre
    rotationEpsilon := p.double (pre ++ "lsq/rotation_epsilon") 0.002
    initialLambdaFactor := p.double (pre ++ "lsq/initial_lambda_factor") 0.000000001
    debugPrint := p.bool (pre ++ "lsq/debug_print") false
    numThreads := p.int (pre ++ "fast_gicp/num_threads") 4
    correspondenceRandomness := p.int (pre ++ "fast_gicp/correspondence_randomness") 20
    regularization := r }

/-- `set_fast_vgicp_parameters`, registration_methods-inl.hpp:68-77. -/
def fastVgicpParams (p : Server) (pre : String) : Outcome Method :=
  fastGicpParams p pre >>= fun g =>
  toAccumulation (p.str (pre ++ "fast_vgicp/voxel_accumulation_mode") "ADDITIVE") >>= fun m =>
  toNeighborSearch (p.str (pre ++ "fast_vgicp/neighbor_search_method") "DIRECT1") >>= fun n =>
  .ok (.fastVgicp g (p.double (pre ++ "fast_vgicp/resolution") 1) m n)

/-- `registration_method`, registration_methods-inl.hpp:90-123, with `set_icp_parameters` (23-28), `set_gicp_parameters` (30-40),
`set_fast_gicp_st_parameters` (61-66) and `set_ndt_parameters` (79-88). -/
def methodParams (p : Server) (pre : String) : Outcome Method :=
  Lidar.toRegMethod (p.str (pre ++ "method") "fast_gicp") >>= fun m =>
  match m with
  | .icp => .ok (.icp (baseParams p pre) (p.bool (pre ++ "icp/use_reciprocal_correspondences") false))
  | .gicp => .ok (.gicp (baseParams p pre) (p.bool (pre ++ "icp/use_reciprocal_correspondences") false)
      (p.double (pre ++ "gicp/rotation_epsilon") 0.002) (p.int (pre ++ "gicp/correspondence_randomness") 20)
      (p.int (pre ++ "gicp/maximum_optimizer_iterations") 20))
  | .fastGicp => fastGicpParams p pre >>= fun g => .ok (.fastGicp g)
  | .fastGicpSt => fastGicpParams p pre >>= fun g => .ok (.fastGicpSt { g with numThreads := 1 })
  | .fastVgicp => fastVgicpParams p pre
  | .ndt => .ok (.ndt { baseParams p pre with maximumIterations := p.int (pre ++ "base/maximum_iterations") 35 }
      (p.double (pre ++ "ndt/resolution") 1) (p.double (pre ++ "ndt/step_size") 0.1)
      (p.double (pre ++ "ndt/outlier_ratio") 0.55))

/-- The parameters of the model of the constructor of `Registration` (Model/Registration.lean), registration-inl.hpp:85-167;
`unit`: the point type. -/
def regConfig (p : Server) (unit : Bool) : Lidar.RegConfig where
  s2m := p.bool "s2m/enabled" true
  s2sMethod := p.str "s2s/method" "fast_gicp"
  s2mMethod := p.str "s2m/method" "fast_gicp"
  covMethod := p.str "registration_covariance/method" "CENSI"
  covModel := p.str "registration_covariance/model" "POINT_TO_PLANE_LINEARISED"
  pointMethod := p.str "registration_covariance/point_covariance/method" "RANGE"
  voxelFilter := p.bool "voxel_grid_filter/enabled" true
  rotationNoise := p.double "registration_covariance/constant/rotation" 0.0174533
  translationNoise := p.double "registration_covariance/constant/translation" 0.01
  pointNoise := p.double "registration_covariance/point_covariance/constant" 0.05
  leafSize := p.double "voxel_grid_filter/leaf_size" 0.1
  rangeNoise := p.double "registration_covariance/point_covariance/range_noise" 0.05
  rangeBiasNoise := p.double "registration_covariance/point_covariance/range_bias_noise" 0.02
  unitPoints := unit

/-- `Registration`: the two methods, the members that the covariance is computed with, the point type and the debugging flags.
Set in registration-inl.hpp:73-199. -/
structure Reg where
  s2s : Method
  s2m : Option Method
  members : Lidar.RegMembers
  unit : Bool
  checkNormals : Bool
  publishClouds : Bool
  publishCloudsAlt : Bool
deriving DecidableEq

/-- registration-inl.hpp:85-91. -/
def s2mParams (p : Server) : Outcome (Option Method) :=
  if p.bool "s2m/enabled" true then methodParams p "s2m/" >>= fun m => .ok (some m) else .ok none

/-- Constructor of `Registration`, registration-inl.hpp:73-199. `publish_clouds_alt` is read only if `publish_clouds` is set. -/
def registration (frames : String → Bool) (p : Server) (unit : Bool) : Outcome Reg :=
  methodParams p "s2s/" >>= fun s2s =>
  s2mParams p >>= fun s2m =>
  Lidar.construct (regConfig p unit) >>= fun members =>
  if frames "lidar" = false then .throws
  else .ok {
    s2s := s2s
    s2m := s2m
    members := members
    unit := unit
    checkNormals := p.bool "debug/registration/check_normals" false
    publishClouds := p.bool "debug/registration/publish_clouds" false
    publishCloudsAlt := p.bool "debug/registration/publish_clouds" false && p.bool "debug/registration/publish_clouds_alt" false }

/-! ### Stereo -/

/-- `cv::FastFeatureDetector::DetectorType`. Chosen in finder.cpp:55-64. -/
inductive FastType where
  | t5_8 | t7_12 | t9_16
deriving DecidableEq, Repr

/-- `cv::ORB::ScoreType`. Chosen in finder.cpp:13-20. -/
inductive ScoreType where
  | harris | fast
deriving DecidableEq, Repr

/-- `cv::TermCriteria::Type`. Chosen in finder.cpp:44-53. -/
inductive Criteria where
  | count | eps | countEps
deriving DecidableEq, Repr

/-- `to_fast_type`, finder.cpp:55-64. -/
def toFastType (s : String) : Outcome FastType :=
  if s = "TYPE_5_8" then .ok .t5_8
  else if s = "TYPE_7_12" then .ok .t7_12
  else if s = "TYPE_9_16" then .ok .t9_16
  else .throws

/-- `to_orb_score_type`, finder.cpp:13-20. -/
def toScoreType (s : String) : Outcome ScoreType :=
  if s = "HARRIS_SCORE" then .ok .harris
  else if s = "FAST_SCORE" then .ok .fast
  else .throws

/-- `to_term_criteria_type`, finder.cpp:44-53. -/
def toCriteria (s : String) : Outcome Criteria :=
  if s = "COUNT" ∨ s = "MAX_ITER" then .ok .count
  else if s = "EPS" then .ok .eps
  else if s = "COUNT+EPS" ∨ s = "MAX_ITER+EPS" then .ok .countEps
  else .throws

/-- Arguments of `cv::GFTTDetector::create`. In finder.cpp:79-88. -/
structure Gftt where
  maxCorners : Int
  qualityLevel : ℚ
  minDistance : ℚ
  blockSize : Int
  useHarrisDetector : Bool
  k : ℚ
deriving DecidableEq

/-- Arguments of `cv::ORB::create`. In finder.cpp:90-104. -/
structure Orb where
  numFeatures : Int
  scaleFactor : ℚ
  numLevels : Int
  edgeThreshold : Int
  firstLevel : Int
  wtaK : Int
  scoreType : ScoreType
  patchSize : Int
  fastThreshold : Int
deriving DecidableEq

/-- Arguments of `cv::SIFT::create`. In finder.cpp:107-115. -/
structure Sift where
  numFeatures : Int
  numOctaveLayers : Int
  contrastThreshold : ℚ
  edgeThreshold : ℚ
  sigma : ℚ
deriving DecidableEq

/-- The detector of features. Made in finder.cpp:216-234. -/
inductive Detector where
  | fast (threshold : Int) (nonmaxSuppression : Bool) (type : FastType)
  | gftt (g : Gftt)
  | orb (o : Orb)
  | sift (s : Sift)
deriving DecidableEq

/-- `create_from_params<cv::FastFeatureDetector>`, finder.cpp:70-77. -/
def fastParams (p : Server) : Outcome Detector :=
  toFastType (p.str "stereo_tracking/detector/fast/type" "TYPE_9_16") >>= fun t =>
  .ok (.fast (p.int "stereo_tracking/detector/fast/threshold" 10)
    (p.bool "stereo_tracking/detector/fast/nonmax_suppression" true) t)

/-- `create_from_params<cv::GFTTDetector>`, finder.cpp:79-88. -/
def gfttParams (p : Server) : Gftt where
  maxCorners := p.int "stereo_tracking/detector/gftt/max_corners" 1000
  qualityLevel := p.double "stereo_tracking/detector/gftt/quality_level" 0.01
  minDistance := p.double "stereo_tracking/detector/gftt/min_distance" 1
  blockSize := p.int "stereo_tracking/detector/gftt/block_size" 3
  useHarrisDetector := p.bool "stereo_tracking/detector/gftt/use_harris_detector" false
  k := p.double "stereo_tracking/detector/gftt/k" 0.04

/-- `create_from_params<cv::ORB>`, finder.cpp:90-104. -/
def orbParams (p : Server) : Outcome Detector :=
  toScoreType (p.str "stereo_tracking/detector/orb/score_type" "HARRIS_SCORE") >>= fun t =>
  .ok (.orb {
    numFeatures := p.int "stereo_tracking/detector/orb/num_features" 500
    scaleFactor := p.double "stereo_tracking/detector/orb/scale_factor" 1.2
    numLevels := p.int "stereo_tracking/detector/orb/num_levels" 8
    edgeThreshold := p.int "stereo_tracking/detector/orb/edge_threshold" 31
    firstLevel := p.int "stereo_tracking/detector/orb/first_level" 0
    wtaK := p.int "stereo_tracking/detector/orb/wta_k" 2
    scoreType := t
    patchSize := p.int "stereo_tracking/detector/orb/patch_size" 31
    fastThreshold := p.int "stereo_tracking/detector/orb/fast_threshold" 20 })

/-- `create_from_params<cv::SIFT>`, finder.cpp:107-115. -/
def siftParams (p : Server) : Sift where
  numFeatures := p.int "stereo_tracking/detector/sift/num_features" 10
  numOctaveLayers := p.int "stereo_tracking/detector/sift/num_octave_layers" 3
  contrastThreshold := p.double "stereo_tracking/detector/sift/constrast_threshold" 0.04
  edgeThreshold := p.double "stereo_tracking/detector/sift/edge_threshold" 10
  sigma := p.double "stereo_tracking/detector/sift/sigma" 1.6

/-- The version of OpenCV: `CV_VERSION_MAJOR` and `CV_VERSION_MINOR`. Used in finder.cpp:106 and 224. -/
structure OpenCv where
  major : Nat
  minor : Nat
deriving DecidableEq

/-- `#if CV_VERSION_MAJOR >= 4 && CV_VERSION_MINOR >= 4`, finder.cpp:106 and 224. -/
def OpenCv.sift (cv : OpenCv) : Bool := decide (cv.major ≥ 4) && decide (cv.minor ≥ 4)

/-- finder.cpp:216-234. -/
def detectorParams (cv : OpenCv) (p : Server) : Outcome Detector :=
  if p.str "stereo_tracking/detector/type" "ORB" = "FAST" then fastParams p
  else if p.str "stereo_tracking/detector/type" "ORB" = "GFTT" then .ok (.gftt (gfttParams p))
  else if p.str "stereo_tracking/detector/type" "ORB" = "ORB" then orbParams p
  else if p.str "stereo_tracking/detector/type" "ORB" = "SIFT" then
    if cv.sift then .ok (.sift (siftParams p)) else .throws
  else .throws

/-- Arguments of `cv::SparsePyrLKOpticalFlow::create`. In finder.cpp:240-262. -/
structure PyrLk where
  winSize : Int × Int
  maxLevel : Int
  criteria : Criteria
  maxCount : Int
  epsilon : ℚ
  flags : Int
  minEigThreshold : ℚ
deriving DecidableEq

/-- `cv::Size{win_size_vec.at(0), win_size_vec.at(1)}`, finder.cpp:245. -/
def toSize (l : List Int) : Outcome (Int × Int) :=
  match l with
  | w :: h :: _ => .ok (w, h)
  | _ => .throws

/-- finder.cpp:240-262. -/
def flowParams (p : Server) : Outcome PyrLk :=
  if p.str "stereo_tracking/sparse_optical_flow/type" "PyrLK" = "PyrLK" then
    toSize (p.ints "stereo_tracking/sparse_optical_flow/win_size" [21, 21]) >>= fun w =>
    toCriteria (p.str "stereo_tracking/sparse_optical_flow/term_criteria/type" "COUNT+EPS") >>= fun c =>
    .ok {
      winSize := w
      maxLevel := p.int "stereo_tracking/sparse_optical_flow/max_level" 3
      criteria := c
      maxCount := p.int "stereo_tracking/sparse_optical_flow/term_criteria/max_count" 30
      epsilon := p.double "stereo_tracking/sparse_optical_flow/term_criteria/epsilon" 0.01
      flags := p.int "stereo_tracking/sparse_optical_flow/flags" 0
      minEigThreshold := p.double "stereo_tracking/sparse_optical_flow/min_eig_threshold" 0 }
  else .throws

/-- The classes of matchers. Chosen in finder.cpp:274-291. -/
inductive Cost where
  | sad | ssd | zmsad | lssad | nncc
deriving DecidableEq, Repr

/-- The choice of finder.cpp:274-291. -/
def toCost (s : String) : Outcome Cost :=
  if s = "SAD" then .ok .sad
  else if s = "SSD" then .ok .ssd
  else if s = "ZMSAD" then .ok .zmsad
  else if s = "LSSAD" then .ok .lssad
  else if s = "NNCC" then .ok .nncc
  else .throws

/-- The matcher of features of the left and the right image. Made in finder.cpp:265-291. -/
structure Matcher where
  cost : Cost
  width : Int
  height : Int
  verticalThreshold : ℚ
  filter : Stereo.MatchingFilter
  ratio : ℚ
deriving DecidableEq

/-- The checks of the constructor of `StereoKeyPointMatcher`, stereo_keypoint_matcher.cpp:25-32. -/
def checkMatcher (m : Matcher) : Outcome Matcher :=
  if m.width < 1 ∨ m.width % 2 = 0 ∨ m.height < 1 ∨ m.height % 2 = 0 then .throws
  else if m.ratio ≤ 0 ∨ m.ratio ≥ 1 then .throws
  else .ok m

/-- finder.cpp:265-291. -/
def matcherParams (p : Server) : Outcome Matcher :=
  Stereo.toMatchingFilter (p.str "stereo_tracking/stereo_keypoint_matcher/matching_filter" "RATIO_TEST") >>= fun f =>
  toCost (p.str "stereo_tracking/stereo_keypoint_matcher/cost_function" "SAD") >>= fun c =>
  checkMatcher {
    cost := c
    width := p.int "stereo_tracking/stereo_keypoint_matcher/window_size/width" 3
    height := p.int "stereo_tracking/stereo_keypoint_matcher/window_size/height" 3
    verticalThreshold := p.double "stereo_tracking/stereo_keypoint_matcher/vertical_pixel_threshold" 1
    filter := f
    ratio := p.double "stereo_tracking/stereo_keypoint_matcher/ratio" 0.5 }

/-- `cv::Rect2i`. Set in finder.cpp:296-302. -/
structure Rect where
  x : Int
  y : Int
  width : Int
  height : Int
deriving DecidableEq

/-- finder.cpp:296-302; `cv::Rect2i()` is all zeros. -/
def roiParams (p : Server) : Rect :=
  if p.bool "stereo_mask/enabled" false then
    { height := p.int "stereo_mask/height" 0
      width := p.int "stereo_mask/width" 0
      x := p.int "stereo_mask/top_left_x" 0
      y := p.int "stereo_mask/top_left_y" 0 }
  else ⟨0, 0, 0, 0⟩

/-- The components of the tracker and the members of `StereoFactorFinder`. Set in finder.cpp:176-321. -/
structure StereoTracking where
  detector : Detector
  matchFilterThreshold : ℚ
  flow : PyrLk
  matcher : Matcher
  costThreshold : ℚ
  roi : Rect
  newFeatureDistance : ℚ
  /-- maximum and minimum distance -/
  distanceFilter : Option (ℚ × ℚ)
  publishStats : Bool
  publishIntermediate : Bool
  publishPoints : Bool
  printStats : Bool
  richKeypoints : Bool
  richMatches : Bool
deriving DecidableEq

/-- Constructor of `StereoFactorFinder`, finder.cpp:176-321, and the distance filter made with the first image, finder.cpp:337-350. -/
def stereo (cv : OpenCv) (p : Server) : Outcome StereoTracking :=
  detectorParams cv p >>= fun d =>
  flowParams p >>= fun f =>
  matcherParams p >>= fun m =>
  .ok {
    detector := d
    matchFilterThreshold := p.double "stereo_tracking/stereo_match_filter/vertical_pixel_threshold" 1
    flow := f
    matcher := m
    costThreshold := p.double "stereo_tracking/stereo_keypoint_matcher/cost_threshold" 1
    roi := roiParams p
    newFeatureDistance := p.double "stereo_tracking/new_feature_dist_threshold" 5
    distanceFilter :=
      if p.bool "stereo_tracking/stereo_distance_filter/enabled" false then
        some (p.double "stereo_tracking/stereo_distance_filter/max_distance" floatMax,
          p.double "stereo_tracking/stereo_distance_filter/min_distance" 0)
      else none
    publishStats := p.bool "debug/stereo/publish_stats" false
    publishIntermediate := p.bool "debug/stereo/publish_intermediate_results" false
    publishPoints := p.bool "debug/stereo/publish_points" false
    printStats := p.bool "debug/stereo/print_stats" false
    richKeypoints := p.bool "debug/stereo/rich_keypoints" true
    richMatches := p.bool "debug/stereo/rich_matches" true }

/-! ### The front end -/

/-- `gtsam::PreintegrationCombinedParams`: gravity (upwards z) and variances; all covariances set from parameters are multiples
of the identity. Set in frontend.cpp:101-115 and optimisation.cpp:109-123. -/
structure Preintegration where
  gravity : ℚ
  integration : ℚ
  integrationBias : ℚ
  accelerometerBias : ℚ
  gyroscopeBias : ℚ
deriving DecidableEq

/-- frontend.cpp:101-115. -/
def frontendPreintegration (p : Server) : Preintegration where
  gravity := p.double "gravity" 9.81
  integration := p.double "imu/noise/integration" 0.001 ^ 2
  integrationBias := p.double "imu/noise/integration_bias" 0.001 ^ 2
  accelerometerBias := p.double "imu/noise/accelerometer_bias" 0.001 ^ 2
  gyroscopeBias := p.double "imu/noise/gyroscope_bias" 0.001 ^ 2

/-- Members of `Frontend`. Set in frontend.cpp:35-145. -/
structure FrontEnd where
  mapFrame : String
  deskewTranslation : Bool
  deskewRotation : Bool
  onlyGraphFrames : Bool
  stereo : Bool
  preintegration : Preintegration
  /-- variances of accelerometer and gyroscope that replace those of the messages -/
  imuOverwrite : Option (ℚ × ℚ)
  barometer : Bool
  /-- variance that replaces the one of the messages -/
  barometerOverwrite : Option ℚ
  /-- the orientation of the IMU is relative to north, east, down, frontend.cpp:195-199 -/
  northEastDown : Bool
  /-- variances and values of the initial state, frontend.cpp:415-430 -/
  priorPosition : ℚ
  priorRotation : ℚ
  priorVelocity : ℚ
  initialPosition : ℚ × ℚ × ℚ
  initialVelocity : ℚ × ℚ × ℚ
deriving DecidableEq

/-- frontend.cpp:100 and 116-125. -/
def imuOverwriteParams (p : Server) : Option (ℚ × ℚ) :=
  if p.bool "imu/noise/overwrite" false then
    some (p.double "imu/noise/accelerometer" 0.001 ^ 2, p.double "imu/noise/gyroscope" 0.001 ^ 2)
  else none

/-- frontend.cpp:137-143. -/
def barometerOverwriteParams (p : Server) : Outcome (Option ℚ) :=
  if p.bool "barometer/noise/overwrite" false then
    if p.double "barometer/noise/barometer" 0.01 ^ 2 ≤ 0 then .throws
    else .ok (some (p.double "barometer/noise/barometer" 0.01 ^ 2))
  else .ok none

/-- Constructor of `Frontend`, frontend.cpp:35-145, and the parameters read later, frontend.cpp:195, 415-430. -/
def frontend (frames : String → Bool) (p : Server) : Outcome FrontEnd :=
  if frames "base_link" = false then .throws
  else if p.bool "optimisation/factors/stereo" true = true ∧
      (p.bool "mdc/translation" true = false ∨ p.bool "mdc/rotation" true = false) then .throws
  else if frames "imu" = false then .throws
  else
    barometerOverwriteParams p >>= fun b =>
    .ok {
      mapFrame := p.str "map_frame_id" "map"
      deskewTranslation := p.bool "mdc/translation" true
      deskewRotation := p.bool "mdc/rotation" true
      onlyGraphFrames := p.bool "stereo_tracking/only_graph_frames" false
      stereo := p.bool "optimisation/factors/stereo" true
      preintegration := frontendPreintegration p
      imuOverwrite := imuOverwriteParams p
      barometer := p.bool "optimisation/factors/barometer" true
      barometerOverwrite := b
      northEastDown := decide (p.str "imu/reference_frame" "NED" = "NED")
      priorPosition := p.double "prior_noise/position" 0.001 ^ 2
      priorRotation := p.double "prior_noise/rotation" 0.001 ^ 2
      priorVelocity := p.double "prior_noise/linear_velocity" 0.001 ^ 2
      initialPosition := (p.double "pose/position/x" 0, p.double "pose/position/y" 0, p.double "pose/position/z" 0)
      initialVelocity := (p.double "velocity/linear/x" 0, p.double "velocity/linear/y" 0, p.double "velocity/linear/z" 0) }

/-! ### The back end -/

/-- `ISAM2Params::optimizationParams`; `mode` is handed to GTSAM as it is. Set in optimisation.cpp:130-146. -/
inductive IsamMethod where
  | gaussNewton (wildfire : ℚ)
  | dogleg (initialDelta wildfire : ℚ) (mode : String) (verbose : Bool)
deriving DecidableEq

/-- `gtsam::ISAM2Params`; `factorization` is handed to GTSAM as it is. Set in optimisation.cpp:129-163. -/
structure Isam where
  method : IsamMethod
  relinearizeThreshold : ℚ
  factorization : String
  relinearizeSkip : Int
  enableRelinearization : Bool
  evaluateNonlinearError : Bool
  cacheLinearizedFactors : Bool
deriving DecidableEq

/-- optimisation.cpp:130-146. -/
def isamMethodParams (p : Server) : Outcome IsamMethod :=
  if p.str "isam2/optimization" "GaussNewton" = "GaussNewton" then
    .ok (.gaussNewton (p.double "isam2/gauss_newton_params/wildfire_threshold" 0.001))
  else if p.str "isam2/optimization" "GaussNewton" = "Dogleg" then
    .ok (.dogleg (p.double "isam2/dogleg_params/initial_delta" 1) (p.double "isam2/dogleg_params/wildfire_threshold" 0.00001)
      (p.str "isam2/dogleg_params/trust_region_adaptation_mode" "SEARCH_EACH_ITERATION")
      (p.bool "isam2/dogleg_params/verbose" false))
  else .throws

/-- optimisation.cpp:129-163. -/
def isamParams (p : Server) : Outcome Isam :=
  isamMethodParams p >>= fun m =>
  .ok {
    method := m
    relinearizeThreshold := p.double "isam2/relinearize_threshold" 0.1
    factorization := p.str "isam2/factorization" "CHOLESKY"
    relinearizeSkip := p.int "isam2/relinearize_skip" 10
    enableRelinearization := p.bool "isam2/enable_relinearization" true
    evaluateNonlinearError := p.bool "isam2/evaluate_nonlinear_error" false
    cacheLinearizedFactors := p.bool "isam2/cache_linearized_factors" true }

/-- `ReweightScheme`. In optimisation.cpp:42-49. -/
inductive Reweight where
  | block | scalar
deriving DecidableEq, Repr

/-- `to_reweight_scheme`, optimisation.cpp:42-49. -/
def toReweight (s : String) : Outcome Reweight :=
  if s = "BLOCK" then .ok .block
  else if s = "SCALAR" then .ok .scalar
  else .throws

/-- `gtsam::noiseModel::mEstimator`. Made in optimisation.cpp:189-233. -/
inductive Estimator where
  | cauchy (k : ℚ) (r : Reweight)
  | dcs (c : ℚ) (r : Reweight)
  | fair (c : ℚ) (r : Reweight)
  | gemanMcClure (c : ℚ) (r : Reweight)
  | huber (k : ℚ) (r : Reweight)
  | l2WithDeadZone (k : ℚ) (r : Reweight)
  | null
  | tukey (c : ℚ) (r : Reweight)
  | welsch (c : ℚ) (r : Reweight)
deriving DecidableEq

/-- The chain of conditions of optimisation.cpp:189-233; `none`: the null pointer that `robust_noise_model` is at first. -/
def estimatorParams (p : Server) : Outcome (Option Estimator) :=
  let type := p.str "stereo_factors/robust/type" "huber"
  if type = "cauchy" then
    toReweight (p.str "stereo_factors/robust/cauchy/reweight_scheme" "BLOCK") >>= fun r =>
    .ok (some (.cauchy (p.double "stereo_factors/robust/cauchy/k" 0.1) r))
  else if type = "dcs" then
    toReweight (p.str "stereo_factors/robust/dcs/reweight_scheme" "BLOCK") >>= fun r =>
    .ok (some (.dcs (p.double "stereo_factors/robust/dcs/c" 1) r))
  else if type = "fair" then
    toReweight (p.str "stereo_factors/robust/fair/reweight_scheme" "BLOCK") >>= fun r =>
    .ok (some (.fair (p.double "stereo_factors/robust/fair/c" 1.3998) r))
  else if type = "geman_mcclure" then
    toReweight (p.str "stereo_factors/robust/geman_mcclure/reweight_scheme" "BLOCK") >>= fun r =>
    .ok (some (.gemanMcClure (p.double "stereo_factors/robust/geman_mcclure/c" 1) r))
  else if type = "huber" then
    toReweight (p.str "stereo_factors/robust/huber/reweight_scheme" "BLOCK") >>= fun r =>
    .ok (some (.huber (p.double "stereo_factors/robust/huber/k" 1.345) r))
  else if type = "l2_with_dead_zone" then
    toReweight (p.str "stereo_factors/robust/l2_with_dead_zone/reweight_scheme" "BLOCK") >>= fun r =>
    .ok (some (.l2WithDeadZone (p.double "stereo_factors/robust/l2_with_dead_zone/k" 1) r))
  else if type = "null" then .ok (some .null)
  else if type = "tukey" then
    toReweight (p.str "stereo_factors/robust/tukey/reweight_scheme" "BLOCK") >>= fun r =>
    .ok (some (.tukey (p.double "stereo_factors/robust/tukey/c" 4.6851) r))
  else if type = "welsch" then
    toReweight (p.str "stereo_factors/robust/welsch/reweight_scheme" "BLOCK") >>= fun r =>
    .ok (some (.welsch (p.double "stereo_factors/robust/welsch/c" 2.9846) r))
  else .ok none

/-- The noise model of stereo factors: not robust, or `gtsam::noiseModel::Robust` of an estimator (or of a null pointer). Set in
optimisation.cpp:186-235. -/
inductive Robustness where
  | gaussian
  | robust (e : Option Estimator)
deriving DecidableEq

/-- Stereo factors: frame of the left camera, standard deviations, robustness. Set in optimisation.cpp:173-237. -/
structure StereoFactors where
  leftCamFrame : String
  leftX : ℚ
  rightX : ℚ
  y : ℚ
  noise : Robustness
deriving DecidableEq

/-- optimisation.cpp:186-235. -/
def robustnessParams (p : Server) : Outcome Robustness :=
  if p.bool "stereo_factors/robust/enabled" true then estimatorParams p >>= fun e => .ok (.robust e) else .ok .gaussian

/-- optimisation.cpp:173-237; `body_to_frame` throws if the frame is unknown (`std::map::at`). -/
def stereoFactorParams (frames : String → Bool) (p : Server) : Outcome (Option StereoFactors) :=
  if p.bool "optimisation/factors/stereo" true then
    if frames (p.str "stereo_factors/left_cam_frame" "stereo") = false then .throws
    else robustnessParams p >>= fun r =>
      .ok (some {
        leftCamFrame := p.str "stereo_factors/left_cam_frame" "stereo"
        leftX := p.double "stereo_factors/noise/left_x" 5
        rightX := p.double "stereo_factors/noise/right_x" 5
        y := p.double "stereo_factors/noise/y" 10
        noise := r })
  else .ok none

/-- Using the noise model in the first optimisation with a stereo factor (`Robust::WhitenSystem` calls the estimator): undefined
if the estimator is a null pointer. Set in optimisation.cpp:186-235. -/
def StereoFactors.use (s : StereoFactors) : Outcome Unit :=
  match s.noise with
  | .robust none => .ub
  | _ => .ok ()

/-- optimisation.cpp:109-123. -/
def backendPreintegration (p : Server) : Preintegration where
  gravity := p.double "gravity" 9.81
  integration := p.double "imu/noise/integration" 0.001 ^ 2
  integrationBias := p.double "imu/noise/integration_bias" 0.001 ^ 2
  accelerometerBias := p.double "imu/noise/accelerometer_bias" 0.001 ^ 2
  gyroscopeBias := p.double "imu/noise/gyroscope_bias" 0.001 ^ 2

/-- optimisation.cpp:239-249: the standard deviation, if barometer factors are enabled. -/
def barometerBiasParams (p : Server) : Outcome (Option ℚ) :=
  if p.bool "optimisation/factors/barometer" true then
    if p.double "barometer/noise/barometer_bias" 0.000001 = 0 then .throws
    else .ok (some (p.double "barometer/noise/barometer_bias" 0.000001))
  else .ok none

/-- optimisation.cpp:252-261: the size of the window, if marginalisation is enabled. -/
def marginalisationParams (p : Server) : Outcome (Option Nat) :=
  if p.bool "optimisation/marginalisation/enabled" false then
    if p.int "optimisation/marginalisation/window_size" 100 < 0 then .throws
    else .ok (some (wrapUnsigned (p.int "optimisation/marginalisation/window_size" 100)))
  else .ok none

/-- What happens before the node ends with an exception of the optimiser, optimisation.cpp:556 and 619-632: information about the
variable is printed, the graph is saved, the factors with at least this error are printed. -/
structure OnCrash where
  printInformation : Bool
  save : Bool
  printErrors : Option ℚ
deriving DecidableEq

/-- optimisation.cpp:556 and 619-632. -/
def onCrashParams (p : Server) : OnCrash where
  printInformation := p.bool "debug/optimisation/on_crash/print" true
  save := p.bool "debug/optimisation/on_crash/save" false
  printErrors :=
    if p.bool "debug/optimisation/on_crash/print" true && p.bool "debug/optimisation/on_crash/print_options/verbose" false then
      some (p.double "debug/optimisation/on_crash/print_options/min_error" 0)
    else none

/-- `Optimisation`. Set in optimisation.cpp:51-262. -/
structure BackEnd where
  imu : Bool
  registration : Bool
  stereo : Option StereoFactors
  barometerBias : Option ℚ
  mapFrame : String
  publishStereoPoints : Bool
  preintegration : Preintegration
  isam : Isam
  marginalisation : Option Nat
  /-- standard deviations of the prior factors, optimisation.cpp:370, 507 and 508 -/
  priorBarometerBias : ℚ
  priorAccelerometerBias : ℚ
  priorGyroscopeBias : ℚ
  onCrash : OnCrash
deriving DecidableEq

/-- Constructor of `Optimisation`, optimisation.cpp:51-262, and the parameters read later. -/
def backend (frames : String → Bool) (p : Server) : Outcome BackEnd :=
  if frames "imu" = false then .throws
  else
    isamParams p >>= fun i =>
    stereoFactorParams frames p >>= fun s =>
    barometerBiasParams p >>= fun b =>
    marginalisationParams p >>= fun m =>
    .ok {
      imu := p.bool "optimisation/factors/imu" true
      registration := p.bool "optimisation/factors/registration" true
      stereo := s
      barometerBias := b
      mapFrame := p.str "map_frame_id" "map"
      publishStereoPoints := p.bool "debug/optimisation/publish_stereo_points" false
      preintegration := backendPreintegration p
      isam := i
      marginalisation := m
      priorBarometerBias := p.double "prior_noise/barometer_bias" 0.000001
      priorAccelerometerBias := p.double "prior_noise/accelerometer_bias" 0.001
      priorGyroscopeBias := p.double "prior_noise/gyroscope_bias" 0.001
      onCrash := onCrashParams p }

/-! ### The nodes -/

/-- `threads`, node.cpp:75-78 (the same in all nodes): the threads of the spinner. -/
def threadCount (p : Server) : Outcome Nat :=
  if p.int "threads" 4 < 1 then .throws else .ok (p.int "threads" 4).toNat

/-- `add_unit_vectors`, node.cpp:37-39, frontend_node.cpp:25-27, backend_node.cpp:25-27. -/
def unitVectors (p : Server) : Outcome Bool :=
  Lidar.requiresUnitVectorsNamed (p.str "registration_covariance/method" "CENSI")
    (p.str "registration_covariance/point_covariance/method" "RANGE")

/-- `filter_enabled` and `pointcloud_filter`, node.cpp:43-52, frontend_node.cpp:31-40. -/
def filterIfEnabled (p : Server) : Outcome (Option Filter) :=
  if p.bool "voxel_grid_filter/enabled" true || p.bool "body_filter/enabled" false || p.bool "range_filter/enabled" true ||
      p.bool "statistical_outlier_removal/enabled" false || p.bool "random_sample_filter/enabled" false then
    filter p >>= fun f => .ok (some f)
  else .ok none

/-- The modules for pointclouds before registration, node.cpp:35-68, frontend_node.cpp:23-52. -/
structure LidarFront where
  filter : Option Filter
  unit : Bool
  normals : Normals
deriving DecidableEq

/-- The modules for pointclouds from mapping on, node.cpp:60-67, backend_node.cpp:24-37. -/
structure LidarBack where
  mapping : Map
  registration : Reg
deriving DecidableEq

/-- The process of node.cpp. -/
structure Single where
  frontend : FrontEnd
  backend : BackEnd
  formatter : Formatter
  lidar : Option (LidarFront × LidarBack)
  stereo : Option StereoTracking
  threads : Nat
deriving DecidableEq

/-- The process of frontend_node.cpp. -/
structure FrontProcess where
  frontend : FrontEnd
  formatter : Formatter
  lidar : Option LidarFront
  threads : Nat
deriving DecidableEq

/-- The process of backend_node.cpp. -/
structure BackProcess where
  backend : BackEnd
  lidar : Option LidarBack
  stereo : Option StereoTracking
  threads : Nat
deriving DecidableEq

/-- node.cpp:35-69. -/
def singleLidar (frames : String → Bool) (p : Server) : Outcome (Option (LidarFront × LidarBack)) :=
  if p.bool "optimisation/factors/registration" true then
    unitVectors p >>= fun u =>
    filterIfEnabled p >>= fun f =>
    normals p >>= fun n =>
    mapping p >>= fun m =>
    registration frames p u >>= fun r =>
    .ok (some (⟨f, u, n⟩, ⟨m, r⟩))
  else .ok none

/-- frontend_node.cpp:23-52. -/
def frontLidar (p : Server) : Outcome (Option LidarFront) :=
  if p.bool "optimisation/factors/registration" true then
    unitVectors p >>= fun u =>
    filterIfEnabled p >>= fun f =>
    normals p >>= fun n =>
    .ok (some ⟨f, u, n⟩)
  else .ok none

/-- backend_node.cpp:24-37. -/
def backLidar (frames : String → Bool) (p : Server) : Outcome (Option LidarBack) :=
  if p.bool "optimisation/factors/registration" true then
    unitVectors p >>= fun u =>
    mapping p >>= fun m =>
    registration frames p u >>= fun r =>
    .ok (some ⟨m, r⟩)
  else .ok none

/-- node.cpp:70-72, backend_node.cpp:38-40. -/
def stereoIfEnabled (cv : OpenCv) (p : Server) : Outcome (Option StereoTracking) :=
  if p.bool "optimisation/factors/stereo" true then stereo cv p >>= fun s => .ok (some s) else .ok none

/-- `main` of node.cpp:17-87. -/
def single (cv : OpenCv) (frames : String → Bool) (p : Server) : Outcome Single :=
  frontend frames p >>= fun fe =>
  backend frames p >>= fun be =>
  formatter p >>= fun fo =>
  singleLidar frames p >>= fun l =>
  stereoIfEnabled cv p >>= fun s =>
  threadCount p >>= fun t =>
  .ok ⟨fe, be, fo, l, s, t⟩

/-- `main` of frontend_node.cpp:11-65. -/
def frontProcess (frames : String → Bool) (p : Server) : Outcome FrontProcess :=
  frontend frames p >>= fun fe =>
  formatter p >>= fun fo =>
  frontLidar p >>= fun l =>
  threadCount p >>= fun t =>
  .ok ⟨fe, fo, l, t⟩

/-- `main` of backend_node.cpp:10-53. -/
def backProcess (cv : OpenCv) (frames : String → Bool) (p : Server) : Outcome BackProcess :=
  backend frames p >>= fun be =>
  backLidar frames p >>= fun l =>
  stereoIfEnabled cv p >>= fun s =>
  threadCount p >>= fun t =>
  .ok ⟨be, l, s, t⟩

/-- `main` of stereo_pipeline_node.cpp:7-27. -/
def stereoProcess (cv : OpenCv) (p : Server) : Outcome (StereoTracking × Nat) :=
  stereo cv p >>= fun s => threadCount p >>= fun t => .ok (s, t)

end Params

end Serpent
