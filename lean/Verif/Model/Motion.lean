import Verif.Model.NavigationNodes
import Verif.Model.BodyFrames
import Verif.Model.PclDeskew
import Verif.Model.Utilities

/-!
# Model of the numbers that the front end, the back end and the registration exchange

`serpent/src/front_end/frontend.cpp` (initial state, IMU-rate odometry, outputs, deskewing, stereo), `serpent/src/back_end/optimisation.cpp`
(initial state, guess for the registration, optimised odometry, velocity from poses), `registration-inl.hpp` (how the guess is
read) and `serpent/src/utils/utilities.cpp` (preintegration parameters). When these pieces run is modelled in
`Verif/Model/FrontEnd.lean`, `Verif/Model/BackEnd.lean` and `Verif/Model/Registration.lean`.

Simplifications (apply to the whole file):
* Numbers are real; rotations in `gtsam::Rot3` are matrices.
* GTSAM's preintegration is a parameter: the prediction is an arbitrary function of the bias, the state and the measurements that
  were integrated. Each object of the code is created with the bias that it is later asked to predict with.
* Parameters are optional values with the defaults of the code.
* What is printed is not modelled.
-/

namespace Serpent

namespace Motion

open EigenExt EigenRos Matrix Utils

/-- The object `body_frames` and its transform listener. A member of the classes of frontend.cpp and optimisation.cpp. -/
structure Frames where
  tf : BodyFrames.TF (Iso ℝ)
  frames : BodyFrames.St (Iso ℝ)

/-- `body_frames.body_to_frame(name, time)`, body_frames.cpp:60-62. -/
def Frames.bodyTo (f : Frames) (name : String) (time : Int) : Outcome (Iso ℝ) := BodyFrames.bodyToFrame f.tf f.frames name time

/-- `body_frames.frame_to_body(name, time)`, body_frames.cpp:68-70. -/
def Frames.toBody (f : Frames) (name : String) (time : Int) : Outcome (Iso ℝ) := BodyFrames.frameToBody f.tf f.frames name time

/-! ### The initial state -/

/-- `Quaterniond(AngleAxisd(M_PI, Vector3d::UnitX()))`: cosine and sine of half a half turn. In frontend.cpp:195-199. -/
def halfTurnX : Quat := ⟨0, 1, 0, 0⟩

open Classical in
/-- `body_frame_orientation`, frontend.cpp:188-202; `reference` is the parameter `imu/reference_frame`. `isApprox` with the zero
quaternion holds for zero only. -/
noncomputable def bodyFrameOrientation (f : Frames) (reference : Option String) (imu : Imu) : Outcome Quat :=
  if imu.orientation = zeroQuat then .ok Quat.id
  else
    f.toBody "imu" 0 >>= fun X =>
    let q := imu.orientation * Quat.ofMatrix X.R
    .ok (if reference.getD "NED" = "NED" then halfTurnX * q else q)

/-- Parameters of the initial state, frontend.cpp:417-440, and `map_frame_id`. -/
structure InitialParams where
  reference : Option String
  positionNoise : Option ℝ
  rotationNoise : Option ℝ
  velocityNoise : Option ℝ
  position : Fin 3 → Option ℝ
  velocity : Fin 3 → Option ℝ
  mapFrame : String

/-- `Matrix3d::Identity() * std::pow(noise, 2.0)`. In frontend.cpp:101-115. -/
noncomputable def isotropic (noise : Option ℝ) : Matrix (Fin 3) (Fin 3) ℝ :=
  (1 : Matrix (Fin 3) (Fin 3) ℝ).map (· * (noise.getD (1 / 1000)) ^ 2)

/-- frontend.cpp:417-443: the initial odometry from the interpolated measurement at the state time `t`. -/
noncomputable def initialOdometry (f : Frames) (p : InitialParams) (imu : Imu) (t : Int) : Outcome OdometryMsg :=
  bodyFrameOrientation f p.reference imu >>= fun q =>
  let pose := Pose.ofCovariances ![(p.position 0).getD 0, (p.position 1).getD 0, (p.position 2).getD 0] q
    (isotropic p.positionNoise) (isotropic p.rotationNoise)
  let twist := Twist.ofCovariances ![(p.velocity 0).getD 0, (p.velocity 1).getD 0, (p.velocity 2).getD 0] imu.angularVelocity
    (isotropic p.velocityNoise) imu.angularVelocityCov
  BodyFrames.bodyFrameId f.frames >>= fun child =>
  toOdometry OdometryMsg.empty ⟨pose, twist, t, p.mapFrame, child⟩

/-- What the back end takes from the initial odometry, optimisation.cpp:476-498: pose, stamp and velocity of the first state,
covariance of the prior of the pose and of the velocity. -/
structure Prior where
  pose : Pose3
  stamp : Int
  velocity : Fin 3 → ℝ
  poseCov : Matrix (Fin 6) (Fin 6) ℝ
  velocityCov : Matrix (Fin 3) (Fin 3) ℝ

/-- `initial_odometry_callback`, optimisation.cpp:474-504. -/
noncomputable def readInitial (msg : OdometryMsg) : Outcome Prior :=
  fromOdometry msg Odometry.default >>= fun o =>
  .ok ⟨⟨o.pose.orientation.toMatrix, o.pose.position⟩, msg.header.stamp, o.twist.linear, o.pose.covariance,
    o.twist.linearCovariance⟩

/-! ### IMU-rate odometry -/

/-- GTSAM's preintegration: bias, state and measurements. Called in frontend.cpp:220-253 and optimisation.cpp:440-456. -/
abbrev Predict := ImuBias → NavState → List Measured → NavState

/-- frontend.cpp:220-253: the odometry published for the measurement `imu`, when the state is predicted as `x`. -/
noncomputable def imuOdometry (f : Frames) (mapFrame : String) (bias : ImuBias) (x : NavState) (imu : Imu) : Outcome OdometryMsg :=
  f.bodyTo "imu" 0 >>= fun X =>
  let angularVelocity := X.R *ᵥ (imu.angularVelocity + bias.gyroscope)
  BodyFrames.bodyFrameId f.frames >>= fun child =>
  .ok { OdometryMsg.empty with
    header := { HeaderMsg.empty with stamp := imu.timestamp, frameId := mapFrame }
    childFrameId := child
    pose := { PoseCovMsg.empty with pose := ⟨toPoint x.t, toQuaternion (Quat.ofMatrix x.R)⟩ }
    twist := { TwistCovMsg.empty with twist := ⟨toVector3 x.v, toVector3 angularVelocity⟩ } }

/-! ### The optimised state -/

/-- `publish`, optimisation.cpp:567-590: the optimised odometry. -/
noncomputable def optimisedOdometry (f : Frames) (mapFrame : String) (stereo : Bool) (P : Pose3) (cov : Matrix (Fin 6) (Fin 6) ℝ)
    (v : Fin 3 → ℝ) (t : Int) : Outcome OdometryMsg :=
  BodyFrames.bodyFrameId f.frames >>= fun child =>
  (if stereo then .ok OdometryMsg.empty.pose.covariance
    else reorderCovariance cov 3 >>= fun c => toFixedArray OdometryMsg.empty.pose.covariance c) >>= fun a =>
  .ok { OdometryMsg.empty with
    header := { HeaderMsg.empty with stamp := t, frameId := mapFrame }
    childFrameId := child
    pose := ⟨⟨toPoint P.t, toQuaternion (Quat.ofMatrix P.R)⟩, a⟩
    twist := { TwistCovMsg.empty with twist := ⟨toVector3 v, .empty⟩ } }

/-- `update_velocity_from_transforms`, optimisation.cpp:758-770; `dt` is the time between the two states in nanoseconds. -/
noncomputable def velocityFromPoses (previous current : Pose3) (dt : Int) : Fin 3 → ℝ :=
  let translation := (toEigen current).t - (toEigen previous).t
  ![translation 0 / toSec dt, translation 1 / toSec dt, translation 2 / toSec dt]

/-- What the front end sends when it has received the optimised odometry. Sent in frontend.cpp:276-311. -/
inductive Output where
  /-- `tf_broadcaster.sendTransform` -/
  | tf (msg : TransformStampedMsg)
  /-- output/pose -/
  | pose (msg : PoseCovStampedMsg)

/-- An empty `geometry_msgs::TransformStamped`. In frontend.cpp:293-296. -/
def emptyTransformStamped : TransformStampedMsg := ⟨.empty, "", ⟨.empty, .empty⟩⟩

/-- frontend.cpp:278-284: the pose of `base_link`. -/
noncomputable def baseLinkPose (f : Frames) (o : Odometry) : Outcome (Stamped Pose) :=
  if f.frames.body ≠ "base_link" then
    f.bodyTo "base_link" o.timestamp >>= fun X => .ok (applyStamped ⟨o.timestamp, o.pose⟩ X)
  else .ok ⟨o.timestamp, o.pose⟩

/-- The transform, frontend.cpp:276-290. -/
noncomputable def baseLinkTransform (f : Frames) (msg : OdometryMsg) (o : Odometry) : Outcome TransformStampedMsg :=
  baseLinkPose f o >>= fun p =>
  BodyFrames.frameId f.frames "base_link" >>= fun child =>
  let tf := toTransformStamped emptyTransformStamped p
  .ok { tf with header := { tf.header with frameId := msg.header.frameId }, childFrameId := child }

/-- The pose, frontend.cpp:293-296. -/
noncomputable def outputPose (msg : OdometryMsg) (o : Odometry) : Outcome PoseCovStampedMsg :=
  toPoseCovStamped ⟨.empty, .empty⟩ ⟨o.timestamp, o.pose⟩ >>= fun pose =>
  .ok { pose with header := { pose.header with frameId := msg.header.frameId } }

/-- What is sent within the `try` block, frontend.cpp:276-301: an exception ends the block and is caught. -/
noncomputable def outputs (f : Frames) (msg : OdometryMsg) (o : Odometry) : Outcome (List Output) :=
  match baseLinkTransform f msg o with
  | .ub => .ub
  | .throws => .ok []
  | .ok tf =>
    match outputPose msg o with
    | .ub => .ub
    | .throws => .ok [.tf tf]
    | .ok p => .ok [.tf tf, .pose p]

/-- `optimised_odometry_callback`, frontend.cpp:268-301: the state that is stored and what is sent. -/
noncomputable def onOptimised (f : Frames) (msg : OdometryMsg) : Outcome (NavState × List Output) :=
  fromOdometry msg Odometry.default >>= fun o =>
  outputs f msg o >>= fun out =>
  .ok (⟨o.pose.orientation.toMatrix, o.pose.position, o.twist.linear⟩, out)

/-! ### Deskewing -/

/-- `integrate_imu` (utilities.cpp:19-52) into a new object: the measurements that are integrated. -/
noncomputable def integrated (strict : Bool) (buffer : List Imu) (start stop : Int) : Outcome (List Measured) :=
  integrateImu (record strict) (buffer.map Imu.data) start stop [] >>= fun l =>
  .ok (l.map fun x => ⟨x.1.data.linearAcceleration, x.1.data.angularVelocity, toSec x.2⟩)

/-- frontend.cpp:460-492: the states at the start and at the end of the sweep. `world` is the last optimised state, at time
`stateTime`. -/
noncomputable def sweepStates (predict : Predict) (strict initialised : Bool) (bias : ImuBias) (world : NavState) (buffer : List Imu)
    (stateTime start stop : Int) : Outcome (NavState × NavState) :=
  (if initialised then integrated strict buffer stateTime start >>= fun ms => .ok (predict bias world ms) else .ok world) >>=
    fun first =>
  integrated strict buffer start stop >>= fun ms => .ok (first, predict bias first ms)

/-- `state.pose()` as an isometry. In frontend.cpp:220-253. -/
def statePose (x : NavState) : Iso ℝ := toEigen ⟨x.R, x.t⟩

/-- frontend.cpp:490-505: the skew transform; `translation` and `rotation` are the parameters `mdc/translation` and `mdc/rotation`. -/
def skewTransform (f : Frames) (translation rotation : Bool) (first last : NavState) : Outcome (Iso ℝ) :=
  f.bodyTo "lidar" 0 >>= fun X =>
  let skew := changeRelativeTransformFrame ((statePose first)⁻¹ * statePose last) X
  .ok ⟨if rotation then skew.R else 1, if translation then skew.t else ![0, 0, 0]⟩

/-- `pcl_conversions::toPCL(t)`: nanoseconds to microseconds. In frontend.cpp:490-511. -/
def toPcl (t : Int) : Nat := (t / 1000).toNat

/-- `pcl_conversions::fromPCL(t)`. In frontend.cpp:348-360. -/
def fromPcl (t : Nat) : Int := (t : Int) * 1000

/-- frontend.cpp:490-511: the deskewed cloud; `sweep` is `sweep_duration` in nanoseconds, `t` the time of the new state. -/
noncomputable def deskewedCloud (cd : Pcl.Codec ℝ) (f : Frames) (translation rotation : Bool) (first last : NavState) (sweep : Int)
    (t : Int) (cloud : Pcl.Cloud) : Outcome Pcl.Cloud :=
  skewTransform f translation rotation first last >>= fun skew => Pcl.deskew cd skew (toSec sweep) (toPcl t) cloud

/-! ### The guess for the registration -/

/-- optimisation.cpp:440-456: the transform published for the IMU, from the poses of the previous and the new state and the time of
the new state. -/
noncomputable def imuGuess (f : Frames) (previous current : Pose3) (t : Int) : Outcome TransformStampedMsg :=
  f.toBody "lidar" 0 >>= fun X =>
  let body := (isoOfMatrix4 (matrix4 previous.R previous.t))⁻¹ * isoOfMatrix4 (matrix4 current.R current.t)
  let lidar := Pose.ofIsometry (changeRelativeTransformFrame body X) 0
  BodyFrames.frameId f.frames "lidar" >>= fun id =>
  .ok {
    header := { HeaderMsg.empty with stamp := t, frameId := id ++ "_i-1" }
    childFrameId := id
    transform := ofPoseTransform lidar }

/-- optimisation.cpp:524-529: the transform published for the first state. -/
def firstGuess (msg : OdometryMsg) : TransformStampedMsg where
  header := msg.header
  childFrameId := msg.childFrameId
  transform := ofPoseTransform Pose.default

/-- registration-inl.hpp:229-230: how the registration reads the guess. -/
def readGuess (msg : TransformStampedMsg) : Iso ℝ := toTransform (fromTransform msg.transform Pose.default)

/-- registration-inl.hpp:205-207, 215-218: the transform published for the result `T` of the alignment (its covariance is modelled in
`Verif/Model/Registration.lean`). -/
noncomputable def refinedPose (f : Frames) (T : Iso ℝ) : Outcome PoseMsg :=
  f.bodyTo "lidar" 0 >>= fun X =>
  let body := changeRelativeTransformFrame T X
  .ok ⟨toPoint body.t, toQuaternion (Quat.ofMatrix body.R)⟩

/-- optimisation.cpp:272-274 and 291: the pose of the new state from the pose of the previous state and the message. -/
def poseFromRegistration (previous : Pose3) (msg : PoseMsg) : Pose3 :=
  let r : Pose3 := ⟨(fromQuaternion msg.orientation).toMatrix, fromPoint msg.position⟩
  ⟨previous.R * r.R, previous.R *ᵥ r.t + previous.t⟩

/-! ### Stereo -/

/-- A message with a header; `data` is the rest of the message. Of frontend.cpp:535-560. -/
structure Message (D : Type) where
  header : HeaderMsg
  data : D

/-- `StereoData`, stereo_data.hpp. `I` is what an image contains, `C` what a camera info contains. -/
structure StereoData (I C : Type) where
  leftImage : Message I
  rightImage : Message I
  leftInfo : Message C
  rightInfo : Message C

variable {I C D : Type}

/-- A copy of the message with another stamp. In frontend.cpp:535-560. -/
def Message.stamped (m : Message D) (t : Int) : Message D := { m with header := { m.header with stamp := t } }

/-- `change_timestamp`, frontend.cpp:21-32. -/
def changeTimestamp (d : StereoData I C) (t : Int) : StereoData I C :=
  ⟨d.leftImage.stamped t, d.rightImage.stamped t, d.leftInfo.stamped t, d.rightInfo.stamped t⟩

/-- `stereo_callback`, frontend.cpp:562-577: what is put into the buffer. -/
def storedStereo (d : StereoData I C) : StereoData I C := changeTimestamp d (fromPcl (toPcl d.leftImage.header.stamp))

/-- `publish_stereo_data(data, timestamp)`, frontend.cpp:535-560: what is published. `ros::Time()` is 0, and `data.timestamp()` is
the stamp of the left image. -/
def publishedStereo (d : StereoData I C) (t : Int) : StereoData I C :=
  if t = 0 ∨ d.leftImage.header.stamp = t then d
  else ⟨d.leftImage.stamped t, d.rightImage.stamped t, d.leftInfo.stamped t, d.rightInfo.stamped t⟩

/-! ### Preintegration parameters -/

/-- `gtsam::PreintegrationParams`, as far as the code looks at them. Source: utilities.cpp:91-101. -/
structure PreintParams where
  gravity : Fin 3 → ℝ
  accelerometerCov : Matrix (Fin 3) (Fin 3) ℝ
  gyroscopeCov : Matrix (Fin 3) (Fin 3) ℝ
  integrationCov : Matrix (Fin 3) (Fin 3) ℝ

/-- `MakeSharedU(g)`: gravity points down the z axis; frontend.cpp:101-104, optimisation.cpp:109-112. The other two covariances are
those of a new object. -/
noncomputable def newParams (gravity integration : Option ℝ) (acc gyro : Matrix (Fin 3) (Fin 3) ℝ) : PreintParams :=
  ⟨![0, 0, -(gravity.getD (981 / 100))], acc, gyro, isotropic integration⟩

/-- `check_valid`, utilities.cpp:9-13. -/
noncomputable def checkValid (p : PreintParams) : Outcome Bool :=
  if Real.sqrt (p.gravity 0 ^ 2 + p.gravity 1 ^ 2 + p.gravity 2 ^ 2) > 0 then
    isValidCovariance p.accelerometerCov 0 >>= fun a =>
    if a then
      isValidCovariance p.gyroscopeCov 0 >>= fun g =>
      if g then isValidCovariance p.integrationCov 0 else .ok false
    else .ok false
  else .ok false

/-- `update_preintegration_params`, utilities.cpp:91-101: outcome and the parameters afterwards. -/
noncomputable def updateParams (p : PreintParams) (acc gyro : Matrix (Fin 3) (Fin 3) ℝ) : Outcome Unit × PreintParams :=
  let p' := { p with accelerometerCov := acc, gyroscopeCov := gyro }
  match checkValid p' with
  | .ub => (.ub, p')
  | .throws => (.throws, p')
  | .ok valid => (if valid then .ok () else .throws, p')

/-- frontend.cpp:207-210: the covariances of a measurement that goes into the buffer; `overwrite` are the standard deviations
`imu/noise/accelerometer` and `imu/noise/gyroscope` if `imu/noise/overwrite` is set. -/
noncomputable def received (overwrite : Option (Option ℝ × Option ℝ)) (imu : Imu) : Imu :=
  match overwrite with
  | some (a, g) => { imu with linearAccelerationCov := isotropic a, angularVelocityCov := isotropic g }
  | none => imu

end Motion

end Serpent
