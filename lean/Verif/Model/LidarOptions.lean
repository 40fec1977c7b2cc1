import Verif.Basic.Outcome

/-!
# Model of the options of the registration: names and enumerations

serpent/src/front_end/lidar/registration_covariance.cpp ("registration_covariance.cpp"),
serpent/src/front_end/lidar/registration_methods.cpp ("registration_methods.cpp") and
serpent/src/front_end/stereo/sensor_point_types.cpp ("sensor_point_types.cpp"). Values of the enumerations that are not
enumerators are not modelled.
-/

namespace Serpent

namespace Lidar

/-- `CovarianceEstimationMethod`, registration_covariance.hpp:23. -/
inductive CovMethod where
  | constant | censi | lls
deriving DecidableEq, Repr

/-- `CovarianceEstimationModel`, registration_covariance.hpp:25-30. -/
inductive CovModel where
  | pointToPointLinearised | pointToPointNonlinear | pointToPlaneLinearised | pointToPlaneNonlinear
deriving DecidableEq, Repr

/-- `PointCovarianceMethod`, registration_covariance.hpp:32. -/
inductive PointMethod where
  | constant | voxelSize | range | rangeBias
deriving DecidableEq, Repr

/-- `requires_unit_vectors`, registration_covariance.cpp:5-32. -/
def requiresUnitVectors (cov : CovMethod) (point : PointMethod) : Bool :=
  let byCov := match cov with
    | .constant => false
    | .censi => true
    | .lls => true
  let byPoint := match point with
    | .constant => false
    | .voxelSize => false
    | .range => true
    | .rangeBias => true
  byCov && byPoint

/-- `to_covariance_estimation_method`, registration_covariance.cpp:38-47. -/
def toCovMethod (s : String) : Outcome CovMethod :=
  if s = "CONSTANT" then .ok .constant
  else if s = "CENSI" then .ok .censi
  else if s = "LLS" then .ok .lls
  else .throws

/-- `to_covariance_estimation_model`, registration_covariance.cpp:49-60. -/
def toCovModel (s : String) : Outcome CovModel :=
  if s = "POINT_TO_POINT_LINEARISED" then .ok .pointToPointLinearised
  else if s = "POINT_TO_POINT_NONLINEAR" then .ok .pointToPointNonlinear
  else if s = "POINT_TO_PLANE_LINEARISED" then .ok .pointToPlaneLinearised
  else if s = "POINT_TO_PLANE_NONLINEAR" then .ok .pointToPlaneNonlinear
  else .throws

/-- `to_point_covariance_method`, registration_covariance.cpp:62-73. -/
def toPointMethod (s : String) : Outcome PointMethod :=
  if s = "CONSTANT" then .ok .constant
  else if s = "VOXEL_SIZE" then .ok .voxelSize
  else if s = "RANGE" then .ok .range
  else if s = "RANGE_BIAS" then .ok .rangeBias
  else .throws

/-- `requires_unit_vectors` of names, registration_covariance.cpp:34-36. -/
def requiresUnitVectorsNamed (cov point : String) : Outcome Bool :=
  toCovMethod cov >>= fun c => toPointMethod point >>= fun p => .ok (requiresUnitVectors c p)

/-- `to_string`, registration_covariance.cpp:75-86. -/
def CovMethod.name : CovMethod → String
  | .constant => "CONSTANT"
  | .censi => "CENSI"
  | .lls => "LLS"

/-- `to_string`, registration_covariance.cpp:88-101. -/
def CovModel.name : CovModel → String
  | .pointToPointLinearised => "POINT_TO_POINT_LINEARISED"
  | .pointToPointNonlinear => "POINT_TO_POINT_NONLINEAR"
  | .pointToPlaneLinearised => "POINT_TO_PLANE_LINEARISED"
  | .pointToPlaneNonlinear => "POINT_TO_PLANE_NONLINEAR"

/-- `to_string`, registration_covariance.cpp:103-116. -/
def PointMethod.name : PointMethod → String
  | .constant => "CONSTANT"
  | .voxelSize => "VOXEL_SIZE"
  | .range => "RANGE"
  | .rangeBias => "RANGE_BIAS"

/-- `SensorType`, serpent/include/serpent/front_end/stereo/sensor_point_types.hpp:10. -/
inductive SensorType where
  | ouster | custom
deriving DecidableEq, Repr

/-- `to_sensor_type`, sensor_point_types.cpp:9-16. -/
def toSensorType (s : String) : Outcome SensorType :=
  if s = "OUSTER" then .ok .ouster
  else if s = "CUSTOM" then .ok .custom
  else .throws

/-- The classes made by `registration_method`, registration_methods-inl.hpp:90-123. -/
inductive RegMethod where
  | icp | gicp | fastGicp | fastGicpSt | fastVgicp | ndt
deriving DecidableEq, Repr

/-- The choice made by `registration_method`, registration_methods-inl.hpp:90-123; the parameters of the methods are not
modelled. -/
def toRegMethod (s : String) : Outcome RegMethod :=
  if s = "icp" then .ok .icp
  else if s = "gicp" then .ok .gicp
  else if s = "fast_gicp" then .ok .fastGicp
  else if s = "fast_gicp_st" then .ok .fastGicpSt
  else if s = "fast_vgicp" then .ok .fastVgicp
  else if s = "ndt" then .ok .ndt
  else .throws

end Lidar

end Serpent
