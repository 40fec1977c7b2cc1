import Verif.Model.EigenRos

/-!
# Model of the nodes of `navigation_tools` and `imu_tools`, and of `eigen_gtsam` and `serpent/utils/ros_conversion`

`navigation_tools/src/{odometry_to_tf,integrate_imu}.cpp`, `imu_tools/src/{imu_transform,imu_analysis}.cpp`,
`eigen_gtsam/src/geometry.cpp`, `serpent/src/utils/ros_conversion.cpp`. `combine_transforms` is in `Verif/Model/EigenRos.lean`.

Simplifications (apply to the whole file):
* A node is a function of the state of the object and the message; what is published is recorded in order. Queues do not overflow.
* What is printed is not modelled.
* GTSAM's preintegration is a parameter: the prediction and its covariance are arbitrary functions of the measurements that were
  integrated. As in GTSAM, `integrateMeasurement` throws when the duration is not positive.
* An exception that leaves a callback ends the node.
-/

namespace Serpent

namespace EigenRos

open EigenExt Matrix

/-! ### odometry_to_tf -/

/-- `OdometryToTf::odometry_callback`, odometry_to_tf.cpp:10-20. -/
def odometryToTf (odometry : OdometryMsg) : TransformStampedMsg where
  header := odometry.header
  childFrameId := odometry.childFrameId
  transform :=
    { translation := ⟨odometry.pose.pose.position.x, odometry.pose.pose.position.y, odometry.pose.pose.position.z⟩
      rotation := odometry.pose.pose.orientation }

/-! ### imu_transform -/

/-- The members of `ImuTransform`, imu_transform.hpp:17-20. -/
structure ImuTransform where
  rotation : Quat
  overwriteFrame : Bool
  newFrame : String

/-- A default constructed `sensor_msgs::Imu`. In imu_transform.cpp:17-27. -/
def ImuMsg.empty : ImuMsg :=
  ⟨.empty, .empty, List.replicate 9 0, .empty, List.replicate 9 0, .empty, List.replicate 9 0⟩

/-- `eigen_ros::Imu()`; its Eigen members are not initialised: `junk`. In integrate_imu.cpp:54-96. -/
def freshImu (junk : Imu) : Imu := junk

/-- The constructor, imu_transform.cpp:6-15: the parameters `rotation`, `overwrite_frame` and `new_frame`. -/
noncomputable def newImuTransform (rotation : Option (List ℝ)) (overwriteFrame : Option Bool) (newFrame : Option String)
    (junk : Matrix (Fin 3) (Fin 3) ℝ) : Outcome ImuTransform :=
  matrix3dFromParam rotation junk >>= fun m =>
  .ok { rotation := Quat.ofMatrix m, overwriteFrame := overwriteFrame.getD false, newFrame := newFrame.getD "" }

/-- `transform`, imu_transform.cpp:17-27: the message published. -/
def imuTransform (s : ImuTransform) (junk : Imu) (msg : ImuMsg) : Outcome ImuMsg :=
  fromImu msg (freshImu junk) >>= fun imu =>
  let imu := { imu with orientation := s.rotation * imu.orientation }
  let imu := { imu with orientationCov := s.rotation.toMatrix * imu.orientationCov }
  let imu := if s.overwriteFrame then { imu with frame := s.newFrame } else imu
  toImu ImuMsg.empty imu

/-! ### imu_analysis -/

/-- The members of `ImuAnalysis`, imu_analysis.hpp. -/
structure ImuAnalysis where
  fixedFrame : String
  applyTransform : Bool
  transformedFrame : String
  translation : Fin 3 → ℝ
  rotation : Quat

/-- `translation(i) = translation_vec.at(i)`, imu_analysis.cpp:19-22. -/
def vectorFromParam (param : Option (List ℝ)) : Outcome (Fin 3 → ℝ) :=
  let v := param.getD [0, 0, 0]
  checkedAt v 0 >>= fun x => checkedAt v 1 >>= fun y => checkedAt v 2 >>= fun z => .ok ![x, y, z]

/-- The constructor, imu_analysis.cpp:11-37 (the loop of lines 23-29 is that of `matrix3d_from_param`). -/
noncomputable def newImuAnalysis (fixedFrame : Option String) (applyTransform : Option Bool) (transformedFrame : Option String)
    (translation rotation : Option (List ℝ)) (junk : Matrix (Fin 3) (Fin 3) ℝ) : Outcome ImuAnalysis :=
  vectorFromParam translation >>= fun t =>
  matrix3dFromParam rotation junk >>= fun m =>
  .ok {
    fixedFrame := fixedFrame.getD "fixed"
    applyTransform := applyTransform.getD false
    transformedFrame := transformedFrame.getD "fixed"
    translation := t
    rotation := Quat.ofMatrix m }

/-- `analyse`, imu_analysis.cpp:39-76: the transforms that are broadcast. -/
def analyse (s : ImuAnalysis) (junk : Imu) (msg : ImuMsg) : Outcome (List TransformStampedMsg) :=
  let tf : TransformStampedMsg :=
    { header := { HeaderMsg.empty with stamp := msg.header.stamp, frameId := s.fixedFrame }
      childFrameId := msg.header.frameId
      transform := ⟨.empty, msg.orientation⟩ }
  fromImu msg (freshImu junk) >>= fun imu =>
  if s.applyTransform then
    let tf2 : TransformStampedMsg :=
      { tf with
        childFrameId := s.transformedFrame
        transform := ⟨⟨s.translation 0, s.translation 1, s.translation 2⟩, toQuaternion (imu.orientation * s.rotation)⟩ }
    .ok [tf, tf2]
  else .ok [tf]

/-! ### integrate_imu -/

/-- `gtsam::NavState`. In integrate_imu.cpp:54-105. -/
@[ext] structure NavState where
  R : Matrix (Fin 3) (Fin 3) ℝ
  t : Fin 3 → ℝ
  v : Fin 3 → ℝ

/-- A measurement that was integrated: acceleration, angular velocity and duration. In integrate_imu.cpp:56-60. -/
structure Measured where
  acceleration : Fin 3 → ℝ
  angularVelocity : Fin 3 → ℝ
  dt : ℝ

/-- What the node is given: GTSAM's preintegration (with the noise parameters, gravity and the pose of the sensor), the pose of
the body in the frame of the IMU (`frame_to_body("imu")`) and the parameters for the initial state. Set in
integrate_imu.cpp:9-48. -/
structure IntegrateEnv where
  predict : NavState → List Measured → NavState
  covariance : List Measured → Matrix (Fin 15) (Fin 15) ℝ
  imuToBody : Iso ℝ
  position : Fin 3 → ℝ
  velocity : Fin 3 → ℝ

/-- The members of `IntegrateImu` that change, and what it has published. In integrate_imu.cpp:50-108. -/
structure Integrate where
  timestamp : Int
  initial : NavState
  measurements : List Measured
  path : PathMsg
  published : List (OdometryMsg × PathMsg)

/-- The constructor, integrate_imu.cpp:9-48. -/
def newIntegrate : Integrate where
  timestamp := 0
  initial := ⟨1, 0, 0⟩
  measurements := []
  path := ⟨{ HeaderMsg.empty with frameId := "map" }, []⟩
  published := []

/-- `(t1 - t0).toSec()`. In integrate_imu.cpp:56-60. -/
noncomputable def toSec (d : Int) : ℝ := (d : ℝ) / 1000000000

/-- `block<6, 6>(0, 0)`, integrate_imu.cpp:69. -/
def poseBlock (C : Matrix (Fin 15) (Fin 15) ℝ) : Matrix (Fin 6) (Fin 6) ℝ :=
  fun i j => C ⟨i, by omega⟩ ⟨j, by omega⟩

/-- `block<3, 3>(6, 6)`, integrate_imu.cpp:70. -/
def velocityBlock (C : Matrix (Fin 15) (Fin 15) ℝ) : Matrix (Fin 3) (Fin 3) ℝ :=
  fun i j => C ⟨6 + i, by omega⟩ ⟨6 + j, by omega⟩

/-- integrate_imu.cpp:67-86: the odometry message. -/
noncomputable def integratedOdometry (env : IntegrateEnv) (imu : Imu) (state : NavState) (ms : List Measured) : Outcome OdometryMsg :=
  let cov := env.covariance ms
  reorderCovariance (poseBlock cov) 3 >>= fun p =>
  toFixedArray OdometryMsg.empty.pose.covariance p >>= fun pa =>
  reorderCovariance (diagonalBlocks imu.angularVelocityCov (velocityBlock cov)) 3 >>= fun t =>
  toFixedArray OdometryMsg.empty.twist.covariance t >>= fun ta =>
  .ok {
    header := { HeaderMsg.empty with stamp := imu.timestamp, frameId := "map" }
    childFrameId := "body_i-1"
    pose := ⟨⟨toPoint state.t, toQuaternion (Quat.ofMatrix state.R)⟩, pa⟩
    twist := ⟨⟨toVector3 state.v, toVector3 imu.angularVelocity⟩, ta⟩ }

/-- `isApprox(Quaterniond(0, 0, 0, 0))`: Eigen compares with the smaller of the two norms, so that only zero is approximately
zero. In integrate_imu.cpp:98. -/
def zeroQuat : Quat := ⟨0, 0, 0, 0⟩

open Classical in
/-- integrate_imu.cpp:97-100: the orientation of the body. -/
noncomputable def bodyOrientation (env : IntegrateEnv) (orientation : Quat) : Quat :=
  if orientation = zeroQuat then Quat.id else Quat.ofMatrix (orientation.toMatrix * env.imuToBody.R)

/-- integrate_imu.cpp:97-105: the initial state. -/
noncomputable def initialState (env : IntegrateEnv) (imu : Imu) : NavState :=
  ⟨(bodyOrientation env imu.orientation).toMatrix, env.position, env.velocity⟩

/-- integrate_imu.cpp:54-95 and 107. -/
noncomputable def integrateNext (env : IntegrateEnv) (s : Integrate) (imu : Imu) : Outcome Integrate :=
  let dt := toSec (imu.timestamp - s.timestamp)
  if dt = 0 then .throws
  else if dt ≤ 0 then .throws
  else
    let ms := s.measurements ++ [⟨imu.linearAcceleration, imu.angularVelocity, dt⟩]
    integratedOdometry env imu (env.predict s.initial ms) ms >>= fun odometry =>
    let stamped : PoseStampedMsg := ⟨{ HeaderMsg.empty with stamp := imu.timestamp, frameId := "body_i-1" }, odometry.pose.pose⟩
    let path : PathMsg := ⟨{ s.path.header with stamp := imu.timestamp }, s.path.poses ++ [stamped]⟩
    .ok { s with measurements := ms, path := path, published := s.published ++ [(odometry, path)], timestamp := imu.timestamp }

/-- `integrate`, integrate_imu.cpp:50-108. -/
noncomputable def integrate (env : IntegrateEnv) (junk : Imu) (s : Integrate) (msg : ImuMsg) : Outcome Integrate :=
  fromImu msg (freshImu junk) >>= fun imu =>
  if s.timestamp ≠ 0 then integrateNext env s imu
  else .ok { s with initial := initialState env imu, timestamp := imu.timestamp }

/-- The node, for a sequence of messages: the state when it ends, and whether an exception ended it. Calls of
integrate_imu.cpp:50-108. -/
noncomputable def runIntegrate (env : IntegrateEnv) (junk : Imu) : Integrate → List ImuMsg → Outcome Unit × Integrate
  | s, [] => (.ok (), s)
  | s, m :: ms =>
    match integrate env junk s m with
    | .ok s' => runIntegrate env junk s' ms
    | .throws => (.throws, s)
    | .ub => (.ub, s)

/-! ### eigen_gtsam -/

/-- `gtsam::Pose3`. In geometry.cpp:5-15. -/
@[ext] structure Pose3 where
  R : Matrix (Fin 3) (Fin 3) ℝ
  t : Fin 3 → ℝ

/-- `Eigen::Isometry3d::matrix()` and `gtsam::Pose3::matrix()`. In geometry.cpp:5-15. -/
def matrix4 (R : Matrix (Fin 3) (Fin 3) ℝ) (t : Fin 3 → ℝ) : Matrix (Fin 4) (Fin 4) ℝ := fun i j =>
  if hi : (i : Nat) < 3 then (if hj : (j : Nat) < 3 then R ⟨i, hi⟩ ⟨j, hj⟩ else t ⟨i, hi⟩)
  else (if (j : Nat) < 3 then 0 else 1)

/-- `Eigen::Isometry3d(matrix)`. In geometry.cpp:5-15. -/
def isoOfMatrix4 (M : Matrix (Fin 4) (Fin 4) ℝ) : Iso ℝ := ⟨rotationBlock M, translationBlock M⟩

/-- `gtsam::Pose3(matrix)`. In geometry.cpp:5-15. -/
def poseOfMatrix4 (M : Matrix (Fin 4) (Fin 4) ℝ) : Pose3 := ⟨rotationBlock M, translationBlock M⟩

/-- `to_gtsam(Isometry3d)`, eigen_gtsam/src/geometry.cpp:13-15. -/
def toGtsam (T : Iso ℝ) : Pose3 := poseOfMatrix4 (matrix4 T.R T.t)

/-- `to_eigen(Pose3)`, eigen_gtsam/src/geometry.cpp:5-7. -/
def toEigen (P : Pose3) : Iso ℝ := isoOfMatrix4 (matrix4 P.R P.t)

/-- `to_eigen(Rot3)`, eigen_gtsam/src/geometry.cpp:9-11. -/
def rotToEigen (R : Matrix (Fin 3) (Fin 3) ℝ) : Matrix (Fin 3) (Fin 3) ℝ := R

/-! ### serpent/utils/ros_conversion -/

/-- `gtsam::imuBias::ConstantBias`: accelerometer and gyroscope biases. In ros_conversion.cpp:7-40. -/
@[ext] structure ImuBias where
  accelerometer : Fin 3 → ℝ
  gyroscope : Fin 3 → ℝ

/-- `serpent::ImuBiases`. In ros_conversion.cpp:7-40; serpent/msg/ImuBiases.msg. -/
@[ext] structure ImuBiasesMsg where
  header : HeaderMsg
  accelerometerBias : Vector3Msg
  gyroscopeBias : Vector3Msg

/-- `from_ros(ImuBiases)`, ros_conversion.cpp:7-10. -/
def fromImuBiases (msg : ImuBiasesMsg) : ImuBias := ⟨fromVector3 msg.accelerometerBias, fromVector3 msg.gyroscopeBias⟩

/-- `to_ros(ImuBiases&, ...)`, ros_conversion.cpp:23-29. -/
def toImuBiases (msg : ImuBiasesMsg) (b : ImuBias) (timestamp : Int) (frame : String) : ImuBiasesMsg where
  header := { msg.header with stamp := timestamp, frameId := frame }
  accelerometerBias := toVector3 b.accelerometer
  gyroscopeBias := toVector3 b.gyroscope

/-- `from_ros(std::vector<Imu>, deque&)`, ros_conversion.cpp:12-16: appends. -/
def fromImuArray (junk : Imu) (msgs : List ImuMsg) (array : List Imu) : Outcome (List Imu) :=
  msgs.foldlM (fun a m => fromImu m (freshImu junk) >>= fun imu => .ok (a ++ [imu])) array

/-- `to_ros(std::vector<Imu>&, deque)`, ros_conversion.cpp:31-35: appends. -/
def toImuArray (array : List Imu) (msgs : List ImuMsg) : Outcome (List ImuMsg) :=
  array.foldlM (fun a imu => toImu ImuMsg.empty imu >>= fun m => .ok (a ++ [m])) msgs

/-- `from_ros(geometry_msgs::Pose, Pose3&)`, ros_conversion.cpp:18-21. -/
def poseFromRos (msg : PoseMsg) : Pose3 := ⟨(fromQuaternion msg.orientation).toMatrix, fromPoint msg.position⟩

/-- `to_ros(geometry_msgs::Pose&, Pose3)`, ros_conversion.cpp:37-40. -/
noncomputable def poseToRos (P : Pose3) : PoseMsg := ⟨toPoint P.t, toQuaternion (Quat.ofMatrix P.R)⟩

end EigenRos

end Serpent
