import Verif.Model.EigenRos
import Verif.Lemmas.Arrays
import Verif.Lemmas.Iso
import Verif.Lemmas.Quaternion
import Verif.Props.EigenCovariance
import Verif.Spec.EigenRos

/-!
# C46: conversions between values and messages

Each theorem says what the message contains and that converting back returns the value.
-/

namespace Serpent

namespace EigenRos

open EigenExt Matrix Utils

theorem moved_three (i : Fin 6) : moved 3 i = rosOrder i := by
  fin_cases i <;> rfl

theorem rosOrder_rosOrder (i : Fin 6) : rosOrder (rosOrder i) = i := by
  fin_cases i <;> rfl

theorem reorder_six (C : Matrix (Fin 6) (Fin 6) ℝ) : reorderCovariance C 3 = .ok (C.submatrix rosOrder rosOrder) := by
  rw [reorder_eq C (by norm_num) (by norm_num)]
  refine congrArg _ ?_
  funext i j
  rw [Matrix.submatrix_apply, Matrix.submatrix_apply, moved_three, moved_three]

theorem submatrix_rosOrder (C : Matrix (Fin 6) (Fin 6) ℝ) :
    (C.submatrix rosOrder rosOrder).submatrix rosOrder rosOrder = C := by
  funext i j
  simp only [Matrix.submatrix_apply, rosOrder_rosOrder]

/-! ### Vectors and quaternions -/

/-- C46. Points. -/
theorem C46_point (v : Fin 3 → ℝ) (msg : PointMsg) :
    (toPoint v).x = v 0 ∧ (toPoint v).y = v 1 ∧ (toPoint v).z = v 2 ∧ fromPoint (toPoint v) = v ∧
    toPoint (fromPoint msg) = msg := by
  refine ⟨rfl, rfl, rfl, ?_, rfl⟩
  funext i; fin_cases i <;> rfl

/-- C46. Vectors. -/
theorem C46_vector3 (v : Fin 3 → ℝ) (msg : Vector3Msg) :
    (toVector3 v).x = v 0 ∧ (toVector3 v).y = v 1 ∧ (toVector3 v).z = v 2 ∧ fromVector3 (toVector3 v) = v ∧
    toVector3 (fromVector3 msg) = msg := by
  refine ⟨rfl, rfl, rfl, ?_, rfl⟩
  funext i; fin_cases i <;> rfl

/-- C46. Quaternions. -/
theorem C46_quaternion (q : Quat) (msg : QuaternionMsg) :
    (toQuaternion q).w = q.w ∧ (toQuaternion q).x = q.x ∧ (toQuaternion q).y = q.y ∧ (toQuaternion q).z = q.z ∧
    fromQuaternion (toQuaternion q) = q ∧ toQuaternion (fromQuaternion msg) = msg :=
  ⟨rfl, rfl, rfl, rfl, rfl, rfl⟩

/-- C46. Rotation matrices, by way of quaternions: every rotation comes back; the quaternion in the message is a unit
quaternion of the same rotation; a message with a unit quaternion comes back up to the sign of the quaternion. -/
theorem C46_rotation_matrix (R : Matrix (Fin 3) (Fin 3) ℝ) (hR : Quat.Rotation R) :
    fromQuaternionMatrix (toQuaternionMatrix R) = R ∧
    (toQuaternionMatrix R).w ^ 2 + (toQuaternionMatrix R).x ^ 2 + (toQuaternionMatrix R).y ^ 2 +
      (toQuaternionMatrix R).z ^ 2 = 1 := by
  refine ⟨Quat.toMatrix_ofMatrix hR, ?_⟩
  have := Quat.ofMatrix_unit hR
  unfold Quat.Unit at this
  exact this

/-! ### Poses -/

/-- C46. Poses: position and orientation come back; the covariance of the destination stays. -/
theorem C46_pose (p prior : Pose) (msg : PoseMsg) :
    (toPose p).position = toPoint p.position ∧ (toPose p).orientation = toQuaternion p.orientation ∧
    fromPose (toPose p) prior = { p with covariance := prior.covariance } ∧
    toPose (fromPose msg prior) = msg := by
  refine ⟨rfl, rfl, ?_, rfl⟩
  unfold fromPose toPose
  rw [(C46_point p.position PointMsg.empty).2.2.2.1]
  rfl

/-- C46. Poses with covariance: the message holds the pose and the covariance in the order of ROS, and the whole value comes
back, whatever the two objects held before. -/
theorem C46_pose_covariance (p prior : Pose) (msg : PoseCovMsg) (hm : msg.covariance.length = 36) :
    ∃ a, toPoseCov msg p = .ok ⟨toPose p, a⟩ ∧ RosCovariance a p.covariance ∧ fromPoseCov ⟨toPose p, a⟩ prior = .ok p := by
  obtain ⟨a, ha, hr⟩ := writeArray_spec msg.covariance (p.covariance.submatrix rosOrder rosOrder) (by rw [hm])
  refine ⟨a, ?_, hr, ?_⟩
  · unfold toPoseCov toFixedArray
    rw [reorder_six, Outcome.bind_ok, ha, Outcome.bind_ok]
  · unfold fromPoseCov fromFixedArray
    dsimp only
    rw [(C46_pose p prior (toPose p)).2.2.1, hr.read, Outcome.bind_ok, reorder_six, Outcome.bind_ok, submatrix_rosOrder]

/-- C46. A message with a pose and a covariance comes back from the value it is converted to. -/
theorem C46_pose_covariance_back (msg msg' : PoseCovMsg) (hm : msg.covariance.length = 36)
    (hm' : msg'.covariance.length = 36) (prior : Pose) :
    ∃ p, fromPoseCov msg prior = .ok p ∧ RosCovariance msg.covariance p.covariance ∧ toPoseCov msg' p = .ok msg := by
  obtain ⟨C, hC⟩ := RowMajor.exists (m := 6) (n := 6) hm
  refine ⟨{ fromPose msg.pose prior with covariance := C.submatrix rosOrder rosOrder }, ?_, ?_, ?_⟩
  · unfold fromPoseCov fromFixedArray
    dsimp only
    rw [hC.read, Outcome.bind_ok, reorder_six, Outcome.bind_ok]
  · unfold RosCovariance
    rw [submatrix_rosOrder]
    exact hC
  · unfold toPoseCov toFixedArray
    dsimp only
    rw [reorder_six, Outcome.bind_ok, submatrix_rosOrder]
    obtain ⟨b, hb, hr⟩ := writeArray_spec msg'.covariance C hm'
    rw [hb, Outcome.bind_ok, ← hC.unique hr]
    rfl

/-- C46. Stamped poses: the time stamp is carried over, in both directions and for all three kinds of messages; sequence
number, frame and child frame of the message are not touched. -/
theorem C46_stamped (p prior : Stamped Pose) (m1 : PoseStampedMsg) (m2 : TransformStampedMsg) :
    toPoseStamped m1 p = ⟨⟨m1.header.seq, p.stamp, m1.header.frameId⟩, toPose p.data⟩ ∧
    fromPoseStamped (toPoseStamped m1 p) prior = ⟨p.stamp, { p.data with covariance := prior.data.covariance }⟩ ∧
    toTransformStamped m2 p = ⟨⟨m2.header.seq, p.stamp, m2.header.frameId⟩, m2.childFrameId,
      ⟨toVector3 p.data.position, toQuaternion p.data.orientation⟩⟩ ∧
    fromTransformStamped (toTransformStamped m2 p) prior =
      ⟨p.stamp, { p.data with covariance := prior.data.covariance }⟩ := by
  refine ⟨rfl, ?_, rfl, ?_⟩
  · unfold fromPoseStamped toPoseStamped
    dsimp only
    rw [(C46_pose p.data prior.data (toPose p.data)).2.2.1]
  · unfold fromTransformStamped toTransformStamped fromTransform ofPoseTransform
    dsimp only
    rw [(C46_vector3 p.data.position Vector3Msg.empty).2.2.2.1]
    rfl

/-- C46. Stamped poses with covariance. -/
theorem C46_stamped_covariance (p prior : Stamped Pose) (msg : PoseCovStampedMsg) (hm : msg.pose.covariance.length = 36) :
    ∃ a, toPoseCovStamped msg p = .ok ⟨⟨msg.header.seq, p.stamp, msg.header.frameId⟩, ⟨toPose p.data, a⟩⟩ ∧
      RosCovariance a p.data.covariance ∧
      fromPoseCovStamped ⟨⟨msg.header.seq, p.stamp, msg.header.frameId⟩, ⟨toPose p.data, a⟩⟩ prior = .ok p := by
  obtain ⟨a, h1, h2, h3⟩ := C46_pose_covariance p.data prior.data msg.pose hm
  refine ⟨a, ?_, h2, ?_⟩
  · unfold toPoseCovStamped
    rw [h1, Outcome.bind_ok]
  · unfold fromPoseCovStamped
    rw [h3, Outcome.bind_ok]

/-- C46. Isometries: every rigid transform comes back; the message has its translation and a unit quaternion. -/
theorem C46_isometry (T : Iso ℝ) (hT : Rigid T) :
    fromTransformIso (ofIsoTransform T) = T ∧
    (ofIsoTransform T).translation = toVector3 T.t ∧
    Quat.Unit (fromQuaternion (ofIsoTransform T).rotation) ∧
    (fromQuaternion (ofIsoTransform T).rotation).toMatrix = T.R := by
  have hR : Quat.Rotation T.R := ⟨hT.orthogonal, hT.det⟩
  refine ⟨?_, rfl, Quat.ofMatrix_unit hR, Quat.toMatrix_ofMatrix hR⟩
  unfold fromTransformIso toTransform fromTransform ofIsoTransform
  dsimp only
  rw [(C46_quaternion (Quat.ofMatrix T.R) QuaternionMsg.empty).2.2.2.2.1, Quat.toMatrix_ofMatrix hR,
    (C46_vector3 T.t Vector3Msg.empty).2.2.2.1]

/-- C46. A transform message with a unit quaternion gives a rigid transform. -/
theorem C46_isometry_rigid (msg : TransformMsg) (h : Quat.Unit (fromQuaternion msg.rotation)) :
    Rigid (fromTransformIso msg) ∧ (fromTransformIso msg).t = fromVector3 msg.translation :=
  ⟨⟨Quat.toMatrix_orthogonal h, Quat.toMatrix_det h⟩, rfl⟩

/-- A homogeneous matrix: a rotation, a translation and the last row `0 0 0 1`. -/
structure Homogeneous (M : Matrix (Fin 4) (Fin 4) ℝ) : Prop where
  rotation : Quat.Rotation (fun i j : Fin 3 => M i.castSucc j.castSucc)
  last : M 3 = ![0, 0, 0, 1]

/-- C46. 4x4 matrices of rigid transforms, by pose and by transform messages. -/
theorem C46_matrix4 (M : Matrix (Fin 4) (Fin 4) ℝ) (hM : Homogeneous M) :
    fromPoseMatrix (ofMatrixPose M) = M ∧ fromTransformMatrix (ofMatrixTransform M) = M ∧
    (ofMatrixPose M).position = ⟨M 0 3, M 1 3, M 2 3⟩ ∧ (ofMatrixTransform M).translation = ⟨M 0 3, M 1 3, M 2 3⟩ := by
  have key : homogeneous (translationBlock M) (rotationBlock M) = M := by
    have h3 := hM.last
    funext i j
    unfold homogeneous translationBlock rotationBlock
    have l : ∀ j, M 3 j = (![0, 0, 0, 1] : Fin 4 → ℝ) j := fun j => by rw [h3]
    fin_cases i <;> fin_cases j <;> simp [l]
  have hR : Quat.Rotation (rotationBlock M) := hM.rotation
  refine ⟨?_, ?_, rfl, rfl⟩
  · unfold fromPoseMatrix ofMatrixPose
    dsimp only
    rw [(C46_point (translationBlock M) PointMsg.empty).2.2.2.1]
    unfold toQuaternionMatrix
    rw [(C46_quaternion (Quat.ofMatrix (rotationBlock M)) QuaternionMsg.empty).2.2.2.2.1, Quat.toMatrix_ofMatrix hR, key]
  · unfold fromTransformMatrix ofMatrixTransform
    dsimp only
    rw [(C46_vector3 (translationBlock M) Vector3Msg.empty).2.2.2.1]
    unfold toQuaternionMatrix
    rw [(C46_quaternion (Quat.ofMatrix (rotationBlock M)) QuaternionMsg.empty).2.2.2.2.1, Quat.toMatrix_ofMatrix hR, key]

/-- C46. The matrix of a pose message acts on points as the transform of the pose does. -/
theorem C46_matrix4_action (msg : PoseMsg) (prior : Pose) (p : Fin 3 → ℝ) (i : Fin 3) :
    (fromPoseMatrix msg *ᵥ ![p 0, p 1, p 2, 1]) i.castSucc = (toTransform (fromPose msg prior)).apply p i ∧
    (fromPoseMatrix msg *ᵥ ![p 0, p 1, p 2, 1]) 3 = 1 := by
  constructor
  · unfold fromPoseMatrix toTransform fromPose Iso.apply homogeneous
    fin_cases i <;> simp [Matrix.mulVec, dotProduct, Fin.sum_univ_four, Fin.sum_univ_three]
  · unfold fromPoseMatrix homogeneous
    simp [Matrix.mulVec, dotProduct]

/-! ### Twists, odometry and IMU measurements -/

/-- C46. Twists: both velocities come back; the covariance of the destination stays. -/
theorem C46_twist (t prior : Twist) (msg : TwistMsg) :
    toTwist t = ⟨toVector3 t.linear, toVector3 t.angular⟩ ∧
    fromTwist (toTwist t) prior = { t with covariance := prior.covariance } ∧ toTwist (fromTwist msg prior) = msg := by
  refine ⟨rfl, ?_, rfl⟩
  unfold fromTwist toTwist
  dsimp only
  rw [(C46_vector3 t.linear Vector3Msg.empty).2.2.2.1, (C46_vector3 t.angular Vector3Msg.empty).2.2.2.1]

/-- C46. Twists with covariance. -/
theorem C46_twist_covariance (t prior : Twist) (msg : TwistCovMsg) (hm : msg.covariance.length = 36) :
    ∃ a, toTwistCov msg t = .ok ⟨toTwist t, a⟩ ∧ RosCovariance a t.covariance ∧
      fromTwistCov ⟨toTwist t, a⟩ prior = .ok t := by
  obtain ⟨a, ha, hr⟩ := writeArray_spec msg.covariance (t.covariance.submatrix rosOrder rosOrder) (by rw [hm])
  refine ⟨a, ?_, hr, ?_⟩
  · unfold toTwistCov toFixedArray
    rw [reorder_six, Outcome.bind_ok, ha, Outcome.bind_ok]
  · unfold fromTwistCov fromFixedArray
    dsimp only
    rw [(C46_twist t prior (toTwist t)).2.1, hr.read, Outcome.bind_ok, reorder_six, Outcome.bind_ok, submatrix_rosOrder]

/-- C46. A message with a twist and a covariance comes back from the value it is converted to. -/
theorem C46_twist_covariance_back (msg msg' : TwistCovMsg) (hm : msg.covariance.length = 36)
    (hm' : msg'.covariance.length = 36) (prior : Twist) :
    ∃ t, fromTwistCov msg prior = .ok t ∧ RosCovariance msg.covariance t.covariance ∧ toTwistCov msg' t = .ok msg := by
  obtain ⟨C, hC⟩ := RowMajor.exists (m := 6) (n := 6) hm
  refine ⟨{ fromTwist msg.twist prior with covariance := C.submatrix rosOrder rosOrder }, ?_, ?_, ?_⟩
  · unfold fromTwistCov fromFixedArray
    dsimp only
    rw [hC.read, Outcome.bind_ok, reorder_six, Outcome.bind_ok]
  · unfold RosCovariance
    rw [submatrix_rosOrder]
    exact hC
  · unfold toTwistCov toFixedArray
    dsimp only
    rw [reorder_six, Outcome.bind_ok, submatrix_rosOrder]
    obtain ⟨b, hb, hr⟩ := writeArray_spec msg'.covariance C hm'
    rw [hb, Outcome.bind_ok, ← hC.unique hr]
    rfl

/-- C46. Odometry: the message holds time stamp, frames, pose, twist and both covariances in the order of ROS; the whole value
comes back, whatever the two objects held before. -/
theorem C46_odometry (o prior : Odometry) (msg : OdometryMsg) (h1 : msg.pose.covariance.length = 36)
    (h2 : msg.twist.covariance.length = 36) :
    ∃ a b, toOdometry msg o = .ok ⟨⟨msg.header.seq, o.timestamp, o.frame⟩, o.childFrame, ⟨toPose o.pose, a⟩,
        ⟨toTwist o.twist, b⟩⟩ ∧
      RosCovariance a o.pose.covariance ∧ RosCovariance b o.twist.covariance ∧
      fromOdometry ⟨⟨msg.header.seq, o.timestamp, o.frame⟩, o.childFrame, ⟨toPose o.pose, a⟩, ⟨toTwist o.twist, b⟩⟩ prior =
        .ok o := by
  obtain ⟨a, ha, ra, fa⟩ := C46_pose_covariance o.pose prior.pose msg.pose h1
  obtain ⟨b, hb, rb, fb⟩ := C46_twist_covariance o.twist prior.twist msg.twist h2
  refine ⟨a, b, ?_, ra, rb, ?_⟩
  · unfold toOdometry
    rw [ha, Outcome.bind_ok, hb, Outcome.bind_ok]
    rfl
  · unfold fromOdometry
    dsimp only
    rw [fa, Outcome.bind_ok, fb, Outcome.bind_ok]

/-- C46. An odometry message comes back from the value it is converted to, but for the sequence number. -/
theorem C46_odometry_back (msg msg' : OdometryMsg) (prior : Odometry) (h1 : msg.pose.covariance.length = 36)
    (h2 : msg.twist.covariance.length = 36) (h1' : msg'.pose.covariance.length = 36)
    (h2' : msg'.twist.covariance.length = 36) :
    ∃ o, fromOdometry msg prior = .ok o ∧
      toOdometry msg' o = .ok { msg with header := { msg.header with seq := msg'.header.seq } } := by
  obtain ⟨p, hp, -, hp'⟩ := C46_pose_covariance_back msg.pose msg'.pose h1 h1' prior.pose
  obtain ⟨t, ht, -, ht'⟩ := C46_twist_covariance_back msg.twist msg'.twist h2 h2' prior.twist
  refine ⟨⟨p, t, msg.header.stamp, msg.header.frameId, msg.childFrameId⟩, ?_, ?_⟩
  · unfold fromOdometry
    rw [hp, Outcome.bind_ok, ht, Outcome.bind_ok]
  · unfold toOdometry
    dsimp only
    rw [hp', Outcome.bind_ok, ht', Outcome.bind_ok]
    rfl

/-- C46. IMU measurements: the message holds time stamp, frame, the three measurements and the three covariances row after
row; the whole value comes back, whatever the two objects held before. -/
theorem C46_imu (imu prior : Imu) (msg : ImuMsg) (h1 : msg.orientationCov.length = 9)
    (h2 : msg.angularVelocityCov.length = 9) (h3 : msg.linearAccelerationCov.length = 9) :
    ∃ m, toImu msg imu = .ok m ∧
      m.header = ⟨msg.header.seq, imu.timestamp, imu.frame⟩ ∧
      m.orientation = toQuaternion imu.orientation ∧
      m.angularVelocity = toVector3 imu.angularVelocity ∧
      m.linearAcceleration = toVector3 imu.linearAcceleration ∧
      RowMajor m.orientationCov imu.orientationCov ∧
      RowMajor m.angularVelocityCov imu.angularVelocityCov ∧
      RowMajor m.linearAccelerationCov imu.linearAccelerationCov ∧
      fromImu m prior = .ok imu := by
  obtain ⟨a, ha, ra⟩ := writeArray_spec msg.orientationCov imu.orientationCov (by rw [h1])
  obtain ⟨b, hb, rb⟩ := writeArray_spec msg.angularVelocityCov imu.angularVelocityCov (by rw [h2])
  obtain ⟨c, hc, rc⟩ := writeArray_spec msg.linearAccelerationCov imu.linearAccelerationCov (by rw [h3])
  refine ⟨_, by unfold toImu toFixedArray; rw [ha, Outcome.bind_ok, hb, Outcome.bind_ok, hc, Outcome.bind_ok], rfl, rfl, rfl,
    rfl, ra, rb, rc, ?_⟩
  unfold fromImu fromFixedArray
  dsimp only
  rw [ra.read, Outcome.bind_ok, rb.read, Outcome.bind_ok, rc.read, Outcome.bind_ok]
  rw [(C46_vector3 imu.angularVelocity Vector3Msg.empty).2.2.2.1,
    (C46_vector3 imu.linearAcceleration Vector3Msg.empty).2.2.2.1]
  rfl

/-- C46. The constructors from separate covariances put each block where the accessors and the messages expect it. -/
theorem C46_separate_covariances (v w : Fin 3 → ℝ) (q : Quat) (A B : Matrix (Fin 3) (Fin 3) ℝ) :
    (∀ i j : Fin 3, (Pose.ofCovariances v q A B).covariance (i.castLE (by omega)) (j.castLE (by omega)) = B i j ∧
      (Pose.ofCovariances v q A B).covariance (i.natAdd 3) (j.natAdd 3) = A i j ∧
      (Pose.ofCovariances v q A B).covariance (i.castLE (by omega)) (j.natAdd 3) = 0 ∧
      (Pose.ofCovariances v q A B).covariance (i.natAdd 3) (j.castLE (by omega)) = 0) ∧
    (Twist.ofCovariances v w A B).linearCovariance = A ∧ (Twist.ofCovariances v w A B).angularCovariance = B ∧
    (∀ i j : Fin 3, (Twist.ofCovariances v w A B).covariance (i.castLE (by omega)) (j.natAdd 3) = 0 ∧
      (Twist.ofCovariances v w A B).covariance (i.natAdd 3) (j.castLE (by omega)) = 0) := by
  have lo : ∀ i : Fin 3, sixEquiv.symm (i.castLE (by omega)) = Sum.inl i := by
    intro i; rw [Equiv.symm_apply_eq]; rfl
  have hi : ∀ i : Fin 3, sixEquiv.symm (i.natAdd 3) = Sum.inr i := by
    intro i; rw [Equiv.symm_apply_eq]; rfl
  have lo' : ∀ i : Fin 3, sixEquiv.symm ⟨0 + i, by omega⟩ = Sum.inl i := by
    intro i; rw [Equiv.symm_apply_eq]; apply Fin.ext; exact Nat.zero_add _
  have hi' : ∀ i : Fin 3, sixEquiv.symm ⟨3 + i, by omega⟩ = Sum.inr i := by
    intro i; rw [Equiv.symm_apply_eq]; rfl
  refine ⟨fun i j => ?_, ?_, ?_, fun i j => ?_⟩
  · unfold Pose.ofCovariances diagonalBlocks
    simp only [Matrix.submatrix_apply, lo, hi]
    simp
  · funext i j
    unfold Twist.linearCovariance Twist.ofCovariances diagonalBlocks
    simp only [Matrix.submatrix_apply, hi']
    simp
  · funext i j
    unfold Twist.angularCovariance Twist.ofCovariances diagonalBlocks
    simp only [Matrix.submatrix_apply, lo']
    simp
  · unfold Twist.ofCovariances diagonalBlocks
    simp only [Matrix.submatrix_apply, lo, hi]
    simp

/-- In the message, variance of x comes first, and the entry of x and yaw stands in the last place of the first row. -/
example (a : List ℝ) (C : Matrix (Fin 6) (Fin 6) ℝ) (h : RosCovariance a C) :
    a[0]? = some (C 3 3) ∧ a[5]? = some (C 3 2) ∧ a[35]? = some (C 2 2) :=
  ⟨h.2 0 0, h.2 0 5, h.2 5 5⟩

example : PoseCovMsg.empty.covariance.length = 36 ∧ OdometryMsg.empty.twist.covariance.length = 36 := ⟨rfl, rfl⟩

end EigenRos

end Serpent
