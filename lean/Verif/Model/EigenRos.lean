import Verif.Model.Arrays
import Verif.Model.Quaternion
import Verif.Model.Utilities
import Mathlib.Logic.Equiv.Fin.Basic

/-!
# Model of `eigen_ros` values and messages (geometry_msgs.cpp, nav_msgs.cpp, sensor_msgs.cpp, std_msgs.cpp, pose.cpp,
twist.cpp, odometry.cpp, imu.cpp) and of the node `navigation_tools/combine_transforms`

Simplifications (apply to the whole file):
* Floating point numbers are real numbers; time stamps are integers (nanoseconds).
* The conversions write into an existing object: the model takes the previous value of that object as an argument and
  returns the new one.
* `boost::array<double, 36>` and `boost::array<double, 9>` are lists of that length.
-/

namespace Serpent

namespace EigenRos

open EigenExt Matrix Utils

/-- Rows and columns of a 6x6 matrix as rows and columns of its 3x3 blocks. For geometry.hpp (eigen_ext):217-227. -/
def sixEquiv : Fin 3 ⊕ Fin 3 ≃ Fin 6 := finSumFinEquiv (m := 3) (n := 3)

/-! ### Values -/

/-- `eigen_ros::Pose`, pose.hpp:10-28. Order of the covariance: orientation, position. -/
@[ext] structure Pose where
  position : Fin 3 → ℝ
  orientation : Quat
  covariance : Matrix (Fin 6) (Fin 6) ℝ

/-- Default arguments of the constructor, pose.hpp:12-14. -/
def Pose.default : Pose := ⟨0, Quat.id, 0⟩

/-- `covariance << a, 0, 0, b` for 3x3 blocks (pose.cpp:17, twist.cpp:15). -/
def diagonalBlocks (a b : Matrix (Fin 3) (Fin 3) ℝ) : Matrix (Fin 6) (Fin 6) ℝ :=
  (fromBlocks a 0 0 b).submatrix sixEquiv.symm sixEquiv.symm

/-- `Pose(position, orientation, position_covariance, orientation_covariance)`, pose.cpp:13-18. -/
def Pose.ofCovariances (position : Fin 3 → ℝ) (orientation : Quat) (positionCov orientationCov : Matrix (Fin 3) (Fin 3) ℝ) :
    Pose := ⟨position, orientation, diagonalBlocks orientationCov positionCov⟩

/-- `Pose(isometry, covariance)`, pose.cpp:20-21. `rotation()` of an `Isometry3d` is its linear part. -/
noncomputable def Pose.ofIsometry (T : Iso ℝ) (covariance : Matrix (Fin 6) (Fin 6) ℝ) : Pose :=
  ⟨T.t, Quat.ofMatrix T.R, covariance⟩

/-- `to_transform`, pose.cpp:51-53 and eigen_ext geometry. -/
def toTransform (p : Pose) : Iso ℝ := ⟨p.orientation.toMatrix, p.position⟩

/-- `eigen_ext::change_covariance_frame` on 6x6 matrices. Source: geometry.hpp (eigen_ext):217-227. -/
def changeCovarianceFrame6 (C : Matrix (Fin 6) (Fin 6) ℝ) (T : Iso ℝ) : Matrix (Fin 6) (Fin 6) ℝ :=
  (changeCovarianceFrame (C.submatrix sixEquiv sixEquiv) T).submatrix sixEquiv.symm sixEquiv.symm

/-- `apply_transform(pose, isometry)`, pose.cpp:42-45. -/
noncomputable def applyIsometry (p : Pose) (T : Iso ℝ) : Pose :=
  Pose.ofIsometry (toTransform p * T) (changeCovarianceFrame6 p.covariance T⁻¹)

/-- `apply_transform(pose, pose)`, pose.cpp:38-40. -/
noncomputable def applyPose (p transform : Pose) : Pose := applyIsometry p (toTransform transform)

/-- `apply_transform(stamped pose, isometry)`, pose.cpp:47-49. -/
noncomputable def applyStamped (p : Stamped Pose) (T : Iso ℝ) : Stamped Pose := ⟨p.stamp, applyIsometry p.data T⟩

/-- `eigen_ros::Twist`, twist.hpp:10-29. Order of the covariance: angular, linear. -/
@[ext] structure Twist where
  linear : Fin 3 → ℝ
  angular : Fin 3 → ℝ
  covariance : Matrix (Fin 6) (Fin 6) ℝ

/-- Default arguments of the constructor, twist.hpp:12-14. -/
def Twist.default : Twist := ⟨0, 0, 0⟩

/-- `Twist(linear, angular, linear_covariance, angular_covariance)`, twist.cpp:11-16. -/
def Twist.ofCovariances (linear angular : Fin 3 → ℝ) (linearCov angularCov : Matrix (Fin 3) (Fin 3) ℝ) : Twist :=
  ⟨linear, angular, diagonalBlocks angularCov linearCov⟩

/-- `angular_velocity_covariance`, twist.cpp:23-25. -/
def Twist.angularCovariance (t : Twist) : Matrix (Fin 3) (Fin 3) ℝ :=
  t.covariance.submatrix (fun i => ⟨0 + i, by omega⟩) (fun j => ⟨0 + j, by omega⟩)

/-- `linear_velocity_covariance`, twist.cpp:27-29. -/
def Twist.linearCovariance (t : Twist) : Matrix (Fin 3) (Fin 3) ℝ :=
  t.covariance.submatrix (fun i => ⟨3 + i, by omega⟩) (fun j => ⟨3 + j, by omega⟩)

/-- `eigen_ros::Odometry`, odometry.hpp:13-32. -/
@[ext] structure Odometry where
  pose : Pose
  twist : Twist
  timestamp : Int
  frame : String
  childFrame : String

/-- Default arguments of the constructor, odometry.hpp:15-16. -/
def Odometry.default : Odometry := ⟨.default, .default, 0, "", ""⟩

/-- `apply_transform(odometry, stamped pose)`, odometry.cpp:21-24. -/
noncomputable def applyOdometry (o : Odometry) (transform : Stamped Pose) : Odometry :=
  ⟨applyPose o.pose transform.data, o.twist, transform.stamp, o.frame, o.childFrame⟩

/-- `eigen_ros::Imu`, imu.hpp:14-57. -/
@[ext] structure Imu where
  orientation : Quat
  angularVelocity : Fin 3 → ℝ
  linearAcceleration : Fin 3 → ℝ
  orientationCov : Matrix (Fin 3) (Fin 3) ℝ
  angularVelocityCov : Matrix (Fin 3) (Fin 3) ℝ
  linearAccelerationCov : Matrix (Fin 3) (Fin 3) ℝ
  timestamp : Int
  frame : String

/-- Cross product as Eigen computes it. Used in imu.cpp:23-40. -/
def cross (a b : Fin 3 → ℝ) : Fin 3 → ℝ :=
  ![a 1 * b 2 - a 2 * b 1, a 2 * b 0 - a 0 * b 2, a 0 * b 1 - a 1 * b 0]

/-- `quaternion * vector` (`_transformVector` of Eigen 3.3): `uv = vec × v; uv += uv; v + w * uv + vec × uv`. Used in imu.cpp:23-40. -/
def rotate (q : Quat) (v : Fin 3 → ℝ) : Fin 3 → ℝ :=
  let vec : Fin 3 → ℝ := ![q.x, q.y, q.z]
  let uv := cross vec v
  let uv := uv + uv
  v + q.w • uv + cross vec uv

/-- `Imu::change_frame`, imu.cpp:23-40. -/
def Imu.changeFrame (imu : Imu) (toExt fromExt : Quat) : Imu :=
  { imu with
    orientation := imu.orientation * toExt
    orientationCov := toExt.toMatrix * imu.orientationCov * toExt.toMatrixᵀ
    angularVelocity := rotate fromExt imu.angularVelocity
    angularVelocityCov := fromExt.toMatrix * imu.angularVelocityCov * fromExt.toMatrixᵀ
    linearAcceleration := rotate fromExt imu.linearAcceleration
    linearAccelerationCov := fromExt.toMatrix * imu.linearAccelerationCov * fromExt.toMatrixᵀ }

/-- `Quaterniond::dot`. Used by `slerp` in imu.cpp:84-89. -/
def dot (a b : Quat) : ℝ := a.x * b.x + a.y * b.y + a.z * b.z + a.w * b.w

/-- `NumTraits<double>::epsilon()`. Used by `slerp` in imu.cpp:84-89. -/
noncomputable def epsilon : ℝ := (2 : ℝ)⁻¹ ^ 52

open Classical in
/-- `a.slerp(t, b)` of Eigen 3.3. Called in imu.cpp:84-89. -/
noncomputable def slerp (t : ℝ) (a b : Quat) : Quat :=
  let d := dot a b
  let absD := |d|
  let theta := Real.arccos absD
  let scale0 := if absD ≥ 1 - epsilon then 1 - t else Real.sin ((1 - t) * theta) / Real.sin theta
  let scale1 := if absD ≥ 1 - epsilon then t else Real.sin (t * theta) / Real.sin theta
  let scale1 := if d < 0 then -scale1 else scale1
  ⟨scale0 * a.w + scale1 * b.w, scale0 * a.x + scale1 * b.x, scale0 * a.y + scale1 * b.y, scale0 * a.z + scale1 * b.z⟩

/-- The measurement without its time stamp, as in `Verif.Model.Utilities`. Of imu.hpp:14-57. -/
def Imu.data (imu : Imu) : Stamped (ImuData ℝ Quat) :=
  ⟨imu.timestamp, ⟨imu.orientation, imu.angularVelocity, imu.linearAcceleration, imu.orientationCov,
    imu.angularVelocityCov, imu.linearAccelerationCov, imu.frame⟩⟩

/-- The measurement with its time stamp. Of imu.hpp:14-57. -/
def Imu.ofData (m : Stamped (ImuData ℝ Quat)) : Imu :=
  ⟨m.data.orientation, m.data.angularVelocity, m.data.linearAcceleration, m.data.orientationCov,
    m.data.angularVelocityCov, m.data.linearAccelerationCov, m.stamp, m.data.frame⟩

open Classical in
/-- `eigen_ros::interpolate`, imu.cpp:70-96, with the quaternions of Eigen. -/
noncomputable def interpolateMeasurements (imu1 imu2 : Imu) (t : Int) : Outcome Imu :=
  interpolateImu (⟨0, 0, 0, 0⟩ : Quat) slerp imu1.data imu2.data t >>= fun m => .ok (Imu.ofData m)

/-! ### Messages -/

/-- `geometry_msgs::Point`. Used in geometry_msgs.cpp:9-19. -/
@[ext] structure PointMsg where
  x : ℝ
  y : ℝ
  z : ℝ

/-- `geometry_msgs::Vector3`. Used in geometry_msgs.cpp:177-187. -/
@[ext] structure Vector3Msg where
  x : ℝ
  y : ℝ
  z : ℝ

/-- `geometry_msgs::Quaternion`. Used in geometry_msgs.cpp:131-154. -/
@[ext] structure QuaternionMsg where
  x : ℝ
  y : ℝ
  z : ℝ
  w : ℝ

/-- `std_msgs::Header`. Used in std_msgs.cpp:5-13. -/
@[ext] structure HeaderMsg where
  seq : Nat
  stamp : Int
  frameId : String

/-- `geometry_msgs::Pose`. Used in geometry_msgs.cpp:52-60. -/
@[ext] structure PoseMsg where
  position : PointMsg
  orientation : QuaternionMsg

/-- `geometry_msgs::PoseWithCovariance`. Used in geometry_msgs.cpp:31-40. -/
@[ext] structure PoseCovMsg where
  pose : PoseMsg
  covariance : List ℝ

/-- `geometry_msgs::PoseStamped`. Used in geometry_msgs.cpp:42-50. -/
@[ext] structure PoseStampedMsg where
  header : HeaderMsg
  pose : PoseMsg

/-- `geometry_msgs::PoseWithCovarianceStamped`. Used in geometry_msgs.cpp:21-29. -/
@[ext] structure PoseCovStampedMsg where
  header : HeaderMsg
  pose : PoseCovMsg

/-- `geometry_msgs::Transform`. Used in geometry_msgs.cpp:101-109. -/
@[ext] structure TransformMsg where
  translation : Vector3Msg
  rotation : QuaternionMsg

/-- `geometry_msgs::TransformStamped`. Used in geometry_msgs.cpp:91-99. -/
@[ext] structure TransformStampedMsg where
  header : HeaderMsg
  childFrameId : String
  transform : TransformMsg

/-- `geometry_msgs::Twist`. Used in geometry_msgs.cpp:167-175. -/
@[ext] structure TwistMsg where
  linear : Vector3Msg
  angular : Vector3Msg

/-- `geometry_msgs::TwistWithCovariance`. Used in geometry_msgs.cpp:156-165. -/
@[ext] structure TwistCovMsg where
  twist : TwistMsg
  covariance : List ℝ

/-- `nav_msgs::Odometry`. Used in nav_msgs.cpp:8-20. -/
@[ext] structure OdometryMsg where
  header : HeaderMsg
  childFrameId : String
  pose : PoseCovMsg
  twist : TwistCovMsg

/-- `sensor_msgs::Imu`. Used in sensor_msgs.cpp:9-27. -/
@[ext] structure ImuMsg where
  header : HeaderMsg
  orientation : QuaternionMsg
  orientationCov : List ℝ
  angularVelocity : Vector3Msg
  angularVelocityCov : List ℝ
  linearAcceleration : Vector3Msg
  linearAccelerationCov : List ℝ

/-- `nav_msgs::Path`. Used in optimisation.cpp:603-608 and 772-795. -/
@[ext] structure PathMsg where
  header : HeaderMsg
  poses : List PoseStampedMsg

/-! Default constructed messages. -/

/-- A default constructed message; `to_ros` fills it (geometry_msgs.cpp:9-19). -/
def PointMsg.empty : PointMsg := ⟨0, 0, 0⟩
/-- A default constructed message; `to_ros` fills it (geometry_msgs.cpp:177-187). -/
def Vector3Msg.empty : Vector3Msg := ⟨0, 0, 0⟩
/-- A default constructed message; `to_ros` fills it (geometry_msgs.cpp:131-154). -/
def QuaternionMsg.empty : QuaternionMsg := ⟨0, 0, 0, 0⟩
/-- A default constructed message; `to_ros` fills it (std_msgs.cpp:5-13). -/
def HeaderMsg.empty : HeaderMsg := ⟨0, 0, ""⟩
/-- A default constructed message; `to_ros` fills it (geometry_msgs.cpp:52-60). -/
def PoseMsg.empty : PoseMsg := ⟨.empty, .empty⟩
/-- A default constructed message; `to_ros` fills it (geometry_msgs.cpp:31-40). -/
def PoseCovMsg.empty : PoseCovMsg := ⟨.empty, List.replicate 36 0⟩
/-- A default constructed message; `to_ros` fills it (geometry_msgs.cpp:42-50). -/
def PoseStampedMsg.empty : PoseStampedMsg := ⟨.empty, .empty⟩
/-- A default constructed message; `to_ros` fills it (geometry_msgs.cpp:156-165). -/
def TwistCovMsg.empty : TwistCovMsg := ⟨⟨.empty, .empty⟩, List.replicate 36 0⟩
/-- A default constructed message; `to_ros` fills it (nav_msgs.cpp:8-20). -/
def OdometryMsg.empty : OdometryMsg := ⟨.empty, "", .empty, .empty⟩

/-! ### Conversions: geometry_msgs.cpp -/

/-- geometry_msgs.cpp:9-13. -/
def fromPoint (msg : PointMsg) : Fin 3 → ℝ := ![msg.x, msg.y, msg.z]

/-- geometry_msgs.cpp:15-19. -/
def toPoint (v : Fin 3 → ℝ) : PointMsg := ⟨v 0, v 1, v 2⟩

/-- geometry_msgs.cpp:177-181. -/
def fromVector3 (msg : Vector3Msg) : Fin 3 → ℝ := ![msg.x, msg.y, msg.z]

/-- geometry_msgs.cpp:183-187. -/
def toVector3 (v : Fin 3 → ℝ) : Vector3Msg := ⟨v 0, v 1, v 2⟩

/-- geometry_msgs.cpp:131-136. -/
def fromQuaternion (msg : QuaternionMsg) : Quat := { w := msg.w, x := msg.x, y := msg.y, z := msg.z }

/-- geometry_msgs.cpp:138-143. -/
def toQuaternion (q : Quat) : QuaternionMsg := { w := q.w, x := q.x, y := q.y, z := q.z }

/-- geometry_msgs.cpp:145-149. -/
def fromQuaternionMatrix (msg : QuaternionMsg) : Matrix (Fin 3) (Fin 3) ℝ := (fromQuaternion msg).toMatrix

/-- geometry_msgs.cpp:151-154. -/
noncomputable def toQuaternionMatrix (R : Matrix (Fin 3) (Fin 3) ℝ) : QuaternionMsg := toQuaternion (Quat.ofMatrix R)

/-- geometry_msgs.cpp:52-55. -/
def fromPose (msg : PoseMsg) (pose : Pose) : Pose :=
  { pose with position := fromPoint msg.position, orientation := fromQuaternion msg.orientation }

/-- geometry_msgs.cpp:57-60. -/
def toPose (pose : Pose) : PoseMsg := ⟨toPoint pose.position, toQuaternion pose.orientation⟩

/-- geometry_msgs.cpp:31-35. -/
noncomputable def fromPoseCov (msg : PoseCovMsg) (pose : Pose) : Outcome Pose :=
  let pose := fromPose msg.pose pose
  fromFixedArray msg.covariance pose.covariance >>= fun c =>
  reorderCovariance c 3 >>= fun c =>
  .ok { pose with covariance := c }

/-- geometry_msgs.cpp:37-40. -/
noncomputable def toPoseCov (msg : PoseCovMsg) (pose : Pose) : Outcome PoseCovMsg :=
  reorderCovariance pose.covariance 3 >>= fun c =>
  toFixedArray msg.covariance c >>= fun a =>
  .ok ⟨toPose pose, a⟩

/-- geometry_msgs.cpp:42-45. -/
def fromPoseStamped (msg : PoseStampedMsg) (pose : Stamped Pose) : Stamped Pose :=
  ⟨msg.header.stamp, fromPose msg.pose pose.data⟩

/-- geometry_msgs.cpp:47-50. -/
def toPoseStamped (msg : PoseStampedMsg) (pose : Stamped Pose) : PoseStampedMsg :=
  ⟨{ msg.header with stamp := pose.stamp }, toPose pose.data⟩

/-- geometry_msgs.cpp:21-24. -/
noncomputable def fromPoseCovStamped (msg : PoseCovStampedMsg) (pose : Stamped Pose) : Outcome (Stamped Pose) :=
  fromPoseCov msg.pose pose.data >>= fun p => .ok ⟨msg.header.stamp, p⟩

/-- geometry_msgs.cpp:26-29. -/
noncomputable def toPoseCovStamped (msg : PoseCovStampedMsg) (pose : Stamped Pose) : Outcome PoseCovStampedMsg :=
  toPoseCov msg.pose pose.data >>= fun p => .ok ⟨{ msg.header with stamp := pose.stamp }, p⟩

/-- geometry_msgs.cpp:101-104. -/
def fromTransform (msg : TransformMsg) (pose : Pose) : Pose :=
  { pose with position := fromVector3 msg.translation, orientation := fromQuaternion msg.rotation }

/-- geometry_msgs.cpp:106-109. -/
def ofPoseTransform (pose : Pose) : TransformMsg := ⟨toVector3 pose.position, toQuaternion pose.orientation⟩

/-- geometry_msgs.cpp:91-94. -/
def fromTransformStamped (msg : TransformStampedMsg) (pose : Stamped Pose) : Stamped Pose :=
  ⟨msg.header.stamp, fromTransform msg.transform pose.data⟩

/-- geometry_msgs.cpp:96-99. -/
def toTransformStamped (msg : TransformStampedMsg) (pose : Stamped Pose) : TransformStampedMsg :=
  { msg with header := { msg.header with stamp := pose.stamp }, transform := ofPoseTransform pose.data }

/-- geometry_msgs.cpp:111-115. -/
def fromTransformIso (msg : TransformMsg) : Iso ℝ := toTransform (fromTransform msg Pose.default)

/-- geometry_msgs.cpp:117-120. -/
noncomputable def ofIsoTransform (T : Iso ℝ) : TransformMsg := ⟨toVector3 T.t, toQuaternion (Quat.ofMatrix T.R)⟩

/-- `matrix = Identity; matrix.block<3, 1>(0, 3) = p; matrix.block<3, 3>(0, 0) = R`, geometry_msgs.cpp:62-80. -/
def homogeneous (p : Fin 3 → ℝ) (R : Matrix (Fin 3) (Fin 3) ℝ) : Matrix (Fin 4) (Fin 4) ℝ := fun i j =>
  if hi : (i : Nat) < 3 then
    if hj : (j : Nat) < 3 then R ⟨i, hi⟩ ⟨j, hj⟩ else p ⟨i, hi⟩
  else if i = j then 1 else 0

/-- `matrix.block<3, 1>(0, 3)`. In geometry_msgs.cpp:62-80. -/
def translationBlock (M : Matrix (Fin 4) (Fin 4) ℝ) : Fin 3 → ℝ := fun i => M (i.castLE (by omega)) 3

/-- `matrix.block<3, 3>(0, 0)`. In geometry_msgs.cpp:62-80. -/
def rotationBlock (M : Matrix (Fin 4) (Fin 4) ℝ) : Matrix (Fin 3) (Fin 3) ℝ := fun i j =>
  M (i.castLE (by omega)) (j.castLE (by omega))

/-- geometry_msgs.cpp:82-84. -/
def fromPoseMatrix (msg : PoseMsg) : Matrix (Fin 4) (Fin 4) ℝ :=
  homogeneous (fromPoint msg.position) (fromQuaternion msg.orientation).toMatrix

/-- geometry_msgs.cpp:86-89. -/
noncomputable def ofMatrixPose (M : Matrix (Fin 4) (Fin 4) ℝ) : PoseMsg :=
  ⟨toPoint (translationBlock M), toQuaternionMatrix (rotationBlock M)⟩

/-- geometry_msgs.cpp:122-124. -/
def fromTransformMatrix (msg : TransformMsg) : Matrix (Fin 4) (Fin 4) ℝ :=
  homogeneous (fromVector3 msg.translation) (fromQuaternion msg.rotation).toMatrix

/-- geometry_msgs.cpp:126-129. -/
noncomputable def ofMatrixTransform (M : Matrix (Fin 4) (Fin 4) ℝ) : TransformMsg :=
  ⟨toVector3 (translationBlock M), toQuaternionMatrix (rotationBlock M)⟩

/-- geometry_msgs.cpp:167-170. -/
def fromTwist (msg : TwistMsg) (twist : Twist) : Twist :=
  { twist with linear := fromVector3 msg.linear, angular := fromVector3 msg.angular }

/-- geometry_msgs.cpp:172-175. -/
def toTwist (twist : Twist) : TwistMsg := ⟨toVector3 twist.linear, toVector3 twist.angular⟩

/-- geometry_msgs.cpp:156-160. -/
noncomputable def fromTwistCov (msg : TwistCovMsg) (twist : Twist) : Outcome Twist :=
  let twist := fromTwist msg.twist twist
  fromFixedArray msg.covariance twist.covariance >>= fun c =>
  reorderCovariance c 3 >>= fun c =>
  .ok { twist with covariance := c }

/-- geometry_msgs.cpp:162-165. -/
noncomputable def toTwistCov (msg : TwistCovMsg) (twist : Twist) : Outcome TwistCovMsg :=
  reorderCovariance twist.covariance 3 >>= fun c =>
  toFixedArray msg.covariance c >>= fun a =>
  .ok ⟨toTwist twist, a⟩

/-! ### Conversions: std_msgs.cpp, nav_msgs.cpp, sensor_msgs.cpp -/

/-- `to_ros(Header&, ...)`, std_msgs.cpp:10-13. -/
def toHeader (msg : HeaderMsg) (timestamp : Int) (frame : String) : HeaderMsg :=
  { msg with stamp := timestamp, frameId := frame }

/-- nav_msgs.cpp:8-13 (with std_msgs.cpp:5-8). -/
noncomputable def fromOdometry (msg : OdometryMsg) (odom : Odometry) : Outcome Odometry :=
  fromPoseCov msg.pose odom.pose >>= fun pose =>
  fromTwistCov msg.twist odom.twist >>= fun twist =>
  .ok ⟨pose, twist, msg.header.stamp, msg.header.frameId, msg.childFrameId⟩

/-- nav_msgs.cpp:15-20. -/
noncomputable def toOdometry (msg : OdometryMsg) (odom : Odometry) : Outcome OdometryMsg :=
  toPoseCov msg.pose odom.pose >>= fun pose =>
  toTwistCov msg.twist odom.twist >>= fun twist =>
  .ok ⟨toHeader msg.header odom.timestamp odom.frame, odom.childFrame, pose, twist⟩

/-- sensor_msgs.cpp:9-17 (with std_msgs.cpp:5-8). -/
def fromImu (msg : ImuMsg) (imu : Imu) : Outcome Imu :=
  fromFixedArray msg.orientationCov imu.orientationCov >>= fun o =>
  fromFixedArray msg.angularVelocityCov imu.angularVelocityCov >>= fun w =>
  fromFixedArray msg.linearAccelerationCov imu.linearAccelerationCov >>= fun a =>
  .ok {
    timestamp := msg.header.stamp
    frame := msg.header.frameId
    orientation := fromQuaternion msg.orientation
    angularVelocity := fromVector3 msg.angularVelocity
    linearAcceleration := fromVector3 msg.linearAcceleration
    orientationCov := o
    angularVelocityCov := w
    linearAccelerationCov := a }

/-- sensor_msgs.cpp:19-27. -/
def toImu (msg : ImuMsg) (imu : Imu) : Outcome ImuMsg :=
  toFixedArray msg.orientationCov imu.orientationCov >>= fun o =>
  toFixedArray msg.angularVelocityCov imu.angularVelocityCov >>= fun w =>
  toFixedArray msg.linearAccelerationCov imu.linearAccelerationCov >>= fun a =>
  .ok {
    header := toHeader msg.header imu.timestamp imu.frame
    orientation := toQuaternion imu.orientation
    angularVelocity := toVector3 imu.angularVelocity
    linearAcceleration := toVector3 imu.linearAcceleration
    orientationCov := o
    angularVelocityCov := w
    linearAccelerationCov := a }

/-! ### navigation_tools/combine_transforms -/

/-- A message of one of the types the node can subscribe to (combine_transforms.cpp:16-28). -/
inductive Increment where
  | transform (msg : TransformStampedMsg)
  | pose (msg : PoseStampedMsg)
  | poseCov (msg : PoseCovStampedMsg)

/-- `from_ros<PoseStamped>(*msg)`, combine_transforms.hpp:46. -/
noncomputable def Increment.value : Increment → Outcome (Stamped Pose)
  | .transform msg => .ok (fromTransformStamped msg ⟨0, .default⟩)
  | .pose msg => .ok (fromPoseStamped msg ⟨0, .default⟩)
  | .poseCov msg => fromPoseCovStamped msg ⟨0, .default⟩

/-- `CombineTransforms`: its members and what it has published. Source: combine_transforms.hpp:25-38. -/
structure Combine where
  odometry : Odometry
  path : PathMsg
  published : List (OdometryMsg × PathMsg)

/-- The constructor, combine_transforms.cpp:9-32. -/
def Combine.init : Combine := ⟨.default, ⟨{ HeaderMsg.empty with frameId := "map" }, []⟩, []⟩

/-- `combine`, combine_transforms.cpp:34-47. -/
noncomputable def combine (s : Combine) (transform : Stamped Pose) : Outcome Combine :=
  let odometry := applyOdometry s.odometry transform
  toOdometry OdometryMsg.empty odometry >>= fun odometryMsg =>
  let path : PathMsg :=
    { header := { s.path.header with stamp := transform.stamp }
      poses := s.path.poses ++ [toPoseStamped PoseStampedMsg.empty ⟨odometry.timestamp, odometry.pose⟩] }
  .ok ⟨odometry, path, s.published ++ [(odometryMsg, path)]⟩

/-- `combine_callback`, combine_transforms.hpp:43-50. -/
noncomputable def combineCallback (s : Combine) (msg : Increment) : Outcome Combine :=
  msg.value >>= fun t => combine s t

end EigenRos

end Serpent
