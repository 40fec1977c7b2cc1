import Verif.Props.MotionDeskew
import Verif.Props.NavigationNodes
import Verif.Props.EigenValidity

/-!
# C135 - C140: the states that are published, the initial state, stereo stamps and preintegration parameters
-/

namespace Serpent

namespace Motion

open EigenExt EigenRos Matrix Utils

theorem hasRotation_of {R : Matrix (Fin 3) (Fin 3) ℝ} (h : Quat.Rotation R) : HasRotation (toQuaternion (Quat.ofMatrix R)) R := by
  refine ⟨?_, Quat.toMatrix_ofMatrix h⟩
  have := Quat.ofMatrix_unit h
  unfold Quat.Unit at this
  exact this

theorem mulVec_injective_of_rigid {X : Iso ℝ} (h : Rigid X) {a b : Fin 3 → ℝ} (e : X.R *ᵥ a = X.R *ᵥ b) : a = b := by
  have := congrArg (X.Rᵀ *ᵥ ·) e
  simpa only [Matrix.mulVec_mulVec, h.orthogonal, Matrix.one_mulVec] using this

/-! ### C135: IMU-rate odometry -/

/-- C135. The odometry published for a measurement: stamp of the measurement, the map as frame, the body as child, position,
orientation and velocity of the predicted state, no covariances. -/
theorem C135_fields {f : Frames} {X : Iso ℝ} (h : Mounted f "imu" X) {id : String} (hid : BodyFrames.bodyFrameId f.frames = .ok id)
    (mapFrame : String) (bias : ImuBias) (x : NavState) (imu : Imu) (hx : Rigid (bodyPose x)) :
    ∃ m, imuOdometry f mapFrame bias x imu = .ok m ∧ m.header.stamp = imu.timestamp ∧ m.header.frameId = mapFrame ∧
      m.childFrameId = id ∧ fromPoint m.pose.pose.position = x.t ∧ HasRotation m.pose.pose.orientation x.R ∧
      fromVector3 m.twist.twist.linear = x.v ∧ m.pose.covariance = List.replicate 36 0 ∧ m.twist.covariance = List.replicate 36 0 ∧
      fromVector3 m.twist.twist.angular = X.R *ᵥ (imu.angularVelocity + bias.gyroscope) := by
  refine ⟨_, by unfold imuOdometry; rw [h.bodyTo, Outcome.bind_ok, hid, Outcome.bind_ok], rfl, rfl, rfl,
    (C46_point x.t PointMsg.empty).2.2.2.1, hasRotation_of (rotation_of_rigid hx), (C46_vector3 x.v Vector3Msg.empty).2.2.2.1, rfl, rfl,
    (C46_vector3 _ Vector3Msg.empty).2.2.2.1⟩

/-- C135. The published angular velocity is the measured one, without its bias, in the frame of the body exactly if the bias is zero. -/
theorem C135_angular_iff {f : Frames} {X : Iso ℝ} (h : Mounted f "imu" X) {mapFrame : String} {bias : ImuBias} {x : NavState}
    {imu : Imu} {m : OdometryMsg} (e : imuOdometry f mapFrame bias x imu = .ok m) :
    fromVector3 m.twist.twist.angular = X.R *ᵥ (imu.angularVelocity - bias.gyroscope) ↔ bias.gyroscope = 0 := by
  unfold imuOdometry at e
  rw [h.bodyTo, Outcome.bind_ok] at e
  cases e' : BodyFrames.bodyFrameId f.frames with
  | throws => rw [e'] at e; cases e
  | ub => rw [e'] at e; cases e
  | ok id =>
    rw [e', Outcome.bind_ok] at e
    have e := (Outcome.ok.inj e).symm
    subst e
    rw [show fromVector3 (toVector3 (X.R *ᵥ (imu.angularVelocity + bias.gyroscope))) = X.R *ᵥ (imu.angularVelocity + bias.gyroscope) from
      (C46_vector3 _ Vector3Msg.empty).2.2.2.1]
    constructor
    · intro k
      have k := mulVec_injective_of_rigid h.rigid k
      funext i
      have := congrFun k i
      simp only [Pi.add_apply, Pi.sub_apply] at this
      simp only [Pi.zero_apply]
      linarith
    · intro k
      rw [k, add_zero, sub_zero]

/-- C135. The published linear velocity is the velocity in the frame of the map. It is the velocity in the frame of the body, which
is what the child frame of the message says, exactly if the orientation of the body leaves it unchanged. -/
theorem C135_linear_iff {f : Frames} {X : Iso ℝ} (h : Mounted f "imu" X) {id : String} (hid : BodyFrames.bodyFrameId f.frames = .ok id)
    (mapFrame : String) (bias : ImuBias) (x : NavState) (imu : Imu) (hx : Rigid (bodyPose x)) :
    ∃ m, imuOdometry f mapFrame bias x imu = .ok m ∧
      (fromVector3 m.twist.twist.linear = x.Rᵀ *ᵥ x.v ↔ x.R *ᵥ x.v = x.v) := by
  obtain ⟨m, e, -, -, -, -, -, hv, -⟩ := C135_fields h hid mapFrame bias x imu hx
  refine ⟨m, e, ?_⟩
  rw [hv]
  constructor
  · intro k
    have : x.R *ᵥ x.v = x.R *ᵥ (x.Rᵀ *ᵥ x.v) := congrArg (x.R *ᵥ ·) k
    have o : x.R * x.Rᵀ = 1 := mul_eq_one_comm.1 hx.orthogonal
    rw [Matrix.mulVec_mulVec, o, Matrix.one_mulVec] at this
    exact this
  · intro k
    have o : x.Rᵀ * x.R = 1 := hx.orthogonal
    have : x.Rᵀ *ᵥ (x.R *ᵥ x.v) = x.Rᵀ *ᵥ x.v := congrArg (x.Rᵀ *ᵥ ·) k
    rw [Matrix.mulVec_mulVec, o, Matrix.one_mulVec] at this
    exact this

/-- C135, for an unbiased gyroscope and a body whose orientation leaves the velocity unchanged (for example before it turns): the
published twist is the twist of the body in its own frame. Missing: other biases and orientations, for which it is not
(`C135_angular_iff`, `C135_linear_iff`). -/
theorem C135_twist_partial {f : Frames} {X : Iso ℝ} (h : Mounted f "imu" X) {id : String}
    (hid : BodyFrames.bodyFrameId f.frames = .ok id) (mapFrame : String) (bias : ImuBias) (x : NavState) (imu : Imu)
    (hx : Rigid (bodyPose x)) (hb : bias.gyroscope = 0) (hv : x.R *ᵥ x.v = x.v) :
    ∃ m, imuOdometry f mapFrame bias x imu = .ok m ∧ fromVector3 m.twist.twist.linear = x.Rᵀ *ᵥ x.v ∧
      fromVector3 m.twist.twist.angular = X.R *ᵥ (imu.angularVelocity - bias.gyroscope) := by
  obtain ⟨m, e, hm⟩ := C135_linear_iff h hid mapFrame bias x imu hx
  exact ⟨m, e, hm.2 hv, (C135_angular_iff h e).2 hb⟩

/-- **C135 fails for a biased gyroscope and for a body that has turned.** A gyroscope at rest that shows its bias of 0.1 rad/s about z
is published as turning with 0.2 rad/s; a body that has turned to the left and drives ahead is published as moving to its left. -/
theorem C135_fails_twist : ∃ m, imuOdometry sampleFrames "map" ⟨0, ![0, 0, 1 / 10]⟩ ⟨turned.R, 0, ![0, 1, 0]⟩
      ⟨Quat.id, ![0, 0, 1 / 10], ![0, 0, 9], 0, 0, 0, 5, "imu"⟩ = .ok m ∧
    fromVector3 m.twist.twist.angular = ![0, 0, 1 / 5] ∧ fromVector3 m.twist.twist.linear = ![0, 1, 0] ∧
    turned.Rᵀ *ᵥ ![0, 1, 0] = ![1, 0, 0] := by
  obtain ⟨m, e, -, -, -, -, -, hv, -, -, hw⟩ := C135_fields sampleFrames_imu (id := "base_link") rfl "map" ⟨0, ![0, 0, 1 / 10]⟩
    ⟨turned.R, 0, ![0, 1, 0]⟩ ⟨Quat.id, ![0, 0, 1 / 10], ![0, 0, 9], 0, 0, 0, 5, "imu"⟩ ⟨turned_rigid.orthogonal, turned_rigid.det⟩
  refine ⟨m, e, ?_, hv, ?_⟩
  · rw [hw]
    funext i
    fin_cases i <;> (simp [turned, Matrix.mulVec, dotProduct, Fin.sum_univ_three]; try norm_num)
  · funext i
    fin_cases i <;> simp [turned, Matrix.mulVec, dotProduct, Fin.sum_univ_three]

/-! ### C136: what the front end sends for an optimised state -/

/-- The pose in a message. -/
def messagePose (m : PoseMsg) : Iso ℝ := ⟨(fromQuaternion m.orientation).toMatrix, fromPoint m.position⟩

theorem fromOdometry_fields {msg : OdometryMsg} (hs : SizedOdometry msg) :
    ∃ o, fromOdometry msg Odometry.default = .ok o ∧ o.pose.position = fromPoint msg.pose.pose.position ∧
      o.pose.orientation = fromQuaternion msg.pose.pose.orientation ∧ o.twist.linear = fromVector3 msg.twist.twist.linear ∧
      o.timestamp = msg.header.stamp ∧ toPoseCov .empty o.pose = .ok msg.pose ∧ RosCovariance msg.pose.covariance o.pose.covariance ∧
      RosCovariance msg.twist.covariance o.twist.covariance := by
  obtain ⟨p, hp, hc, hp'⟩ := C46_pose_covariance_back msg.pose .empty hs.1 rfl Pose.default
  obtain ⟨t, ht, hct, -⟩ := C46_twist_covariance_back msg.twist .empty hs.2 rfl Twist.default
  refine ⟨⟨p, t, msg.header.stamp, msg.header.frameId, msg.childFrameId⟩, ?_, ?_, ?_, ?_, rfl, hp', hc, hct⟩
  · unfold fromOdometry
    rw [show Odometry.default.pose = Pose.default from rfl, hp, Outcome.bind_ok, show Odometry.default.twist = Twist.default from rfl, ht,
      Outcome.bind_ok]
  · unfold fromPoseCov at hp
    dsimp only at hp
    cases e : fromFixedArray msg.pose.covariance (fromPose msg.pose.pose Pose.default).covariance with
    | ok c => rw [e, Outcome.bind_ok, reorder_six, Outcome.bind_ok] at hp; rw [← Outcome.ok.inj hp]; rfl
    | throws => rw [e] at hp; cases hp
    | ub => rw [e] at hp; cases hp
  · unfold fromPoseCov at hp
    dsimp only at hp
    cases e : fromFixedArray msg.pose.covariance (fromPose msg.pose.pose Pose.default).covariance with
    | ok c => rw [e, Outcome.bind_ok, reorder_six, Outcome.bind_ok] at hp; rw [← Outcome.ok.inj hp]; rfl
    | throws => rw [e] at hp; cases hp
    | ub => rw [e] at hp; cases hp
  · unfold fromTwistCov at ht
    dsimp only at ht
    cases e : fromFixedArray msg.twist.covariance (fromTwist msg.twist.twist Twist.default).covariance with
    | ok c => rw [e, Outcome.bind_ok, reorder_six, Outcome.bind_ok] at ht; rw [← Outcome.ok.inj ht]; rfl
    | throws => rw [e] at ht; cases ht
    | ub => rw [e] at ht; cases ht

/-- The pose of `base_link` on the body at a time, as the front end looks it up. -/
def BaseLink (f : Frames) (t : Int) (X : Iso ℝ) : Prop :=
  (f.frames.body = "base_link" ∧ X = 1) ∨ (f.frames.body ≠ "base_link" ∧ f.bodyTo "base_link" t = .ok X)

/-- C136. For an optimised state the front end stores its orientation, position and velocity; it broadcasts the pose of `base_link`
in the frame of the message at the time of the message; and it publishes a pose with the covariance of the message. -/
theorem C136_sent {f : Frames} {X : Iso ℝ} {msg : OdometryMsg} (hs : SizedOdometry msg) (hb : BaseLink f msg.header.stamp X)
    (hX : Rigid X) (hq : Quat.Unit (fromQuaternion msg.pose.pose.orientation)) {id : String}
    (hid : BodyFrames.frameId f.frames "base_link" = .ok id) :
    ∃ tf p, onOptimised f msg = .ok (⟨(messagePose msg.pose.pose).R, (messagePose msg.pose.pose).t, fromVector3 msg.twist.twist.linear⟩,
        [.tf tf, .pose p]) ∧
      tf.header.stamp = msg.header.stamp ∧ tf.header.frameId = msg.header.frameId ∧ tf.childFrameId = id ∧
      fromTransformIso tf.transform = messagePose msg.pose.pose * X ∧
      p.header.stamp = msg.header.stamp ∧ p.header.frameId = msg.header.frameId ∧ p.pose = msg.pose := by
  obtain ⟨o, e, h1, h2, h3, h4, h5, -⟩ := fromOdometry_fields hs
  have hpose : outputPose msg o = .ok ⟨⟨0, msg.header.stamp, msg.header.frameId⟩, msg.pose⟩ := by
    unfold outputPose toPoseCovStamped
    dsimp only
    rw [h5, Outcome.bind_ok, Outcome.bind_ok, h4]
    rfl
  have hW : toTransform o.pose = messagePose msg.pose.pose := by unfold toTransform messagePose; rw [h1, h2]
  have hU : Quat.Unit o.pose.orientation := by rw [h2]; exact hq
  have hr : Rigid (messagePose msg.pose.pose * X) := by rw [← hW]; exact (toTransform_rigid hU).mul hX
  have hbase : ∃ q : Pose, baseLinkPose f o = .ok ⟨msg.header.stamp, q⟩ ∧ toTransform q = messagePose msg.pose.pose * X := by
    unfold baseLinkPose
    rcases hb with ⟨b1, b2⟩ | ⟨b1, b2⟩
    · refine ⟨o.pose, ?_, by rw [hW, b2, Iso.mul_one]⟩
      rw [if_neg (by simp [b1]), h4]
    · refine ⟨applyIsometry o.pose X, ?_, ?_⟩
      · rw [if_pos b1, h4, b2, Outcome.bind_ok]
        rfl
      · unfold applyIsometry
        rw [hW, toTransform_ofIsometry hr]
  obtain ⟨q, eq1, eq2⟩ := hbase
  refine ⟨⟨⟨0, msg.header.stamp, msg.header.frameId⟩, id, ofPoseTransform q⟩, ⟨⟨0, msg.header.stamp, msg.header.frameId⟩, msg.pose⟩, ?_,
    rfl, rfl, rfl, ?_, rfl, rfl, rfl⟩
  · have htf : baseLinkTransform f msg o = .ok ⟨⟨0, msg.header.stamp, msg.header.frameId⟩, id, ofPoseTransform q⟩ := by
      unfold baseLinkTransform
      rw [eq1, Outcome.bind_ok, hid, Outcome.bind_ok]
      rfl
    unfold onOptimised
    rw [e, Outcome.bind_ok]
    unfold outputs
    rw [htf, hpose]
    dsimp only
    rw [Outcome.bind_ok, h1, h2, h3]
    rfl
  · rw [← eq2]
    unfold fromTransformIso ofPoseTransform fromTransform toTransform
    dsimp only
    rw [(C46_vector3 q.position Vector3Msg.empty).2.2.2.1]
    rfl

/-- C136, when `base_link` is the body: the published pose is the broadcast one. Missing: other bodies (`C136_fails_pose`). -/
theorem C136_pose_partial {f : Frames} {msg : OdometryMsg} (hs : SizedOdometry msg) (hb : f.frames.body = "base_link")
    (hq : Quat.Unit (fromQuaternion msg.pose.pose.orientation)) {id : String}
    (hid : BodyFrames.frameId f.frames "base_link" = .ok id) :
    ∃ x tf p, onOptimised f msg = .ok (x, [.tf tf, .pose p]) ∧ messagePose p.pose.pose = fromTransformIso tf.transform := by
  obtain ⟨tf, p, e, -, -, -, h1, -, -, h2⟩ := C136_sent hs (.inl ⟨hb, rfl⟩) Rigid.one hq hid
  exact ⟨_, tf, p, e, by rw [h1, h2, Iso.mul_one]⟩

/-- **C136 fails for the published pose.** The pose on output/pose, which is meant to be the pose of `base_link`, is the pose of the
body: it is the broadcast pose exactly if `base_link` lies in the body's frame. -/
theorem C136_fails_pose {f : Frames} {X : Iso ℝ} {msg : OdometryMsg} (hs : SizedOdometry msg) (hb : BaseLink f msg.header.stamp X)
    (hX : Rigid X) (hq : Quat.Unit (fromQuaternion msg.pose.pose.orientation)) {id : String}
    (hid : BodyFrames.frameId f.frames "base_link" = .ok id) :
    ∃ x tf p, onOptimised f msg = .ok (x, [.tf tf, .pose p]) ∧
      (messagePose p.pose.pose = fromTransformIso tf.transform ↔ X = 1) := by
  obtain ⟨tf, p, e, -, -, -, h1, -, -, h2⟩ := C136_sent hs hb hX hq hid
  refine ⟨_, tf, p, e, ?_⟩
  have hr : Rigid (messagePose msg.pose.pose) := ⟨Quat.toMatrix_orthogonal hq, Quat.toMatrix_det hq⟩
  rw [h1, h2]
  constructor
  · intro k
    have : (messagePose msg.pose.pose)⁻¹ * messagePose msg.pose.pose = (messagePose msg.pose.pose)⁻¹ * (messagePose msg.pose.pose * X) :=
      congrArg ((messagePose msg.pose.pose)⁻¹ * ·) k
    rw [← Iso.mul_assoc, hr.inv_mul, Iso.one_mul] at this
    exact this.symm
  · rintro rfl
    rw [Iso.mul_one]

/-- C136. When `base_link` cannot be looked up, nothing is sent, but the state is stored all the same. -/
theorem C136_lookup_fails {f : Frames} {msg : OdometryMsg} (hs : SizedOdometry msg) (hb : f.frames.body ≠ "base_link")
    (hX : f.bodyTo "base_link" msg.header.stamp = .throws) :
    onOptimised f msg =
      .ok (⟨(messagePose msg.pose.pose).R, (messagePose msg.pose.pose).t, fromVector3 msg.twist.twist.linear⟩, []) := by
  obtain ⟨o, e, h1, h2, h3, h4, -⟩ := fromOdometry_fields hs
  have : baseLinkTransform f msg o = .throws := by
    unfold baseLinkTransform baseLinkPose
    rw [if_pos hb, h4, hX]
    rfl
  unfold onOptimised
  rw [e, Outcome.bind_ok]
  unfold outputs
  rw [this]
  dsimp only
  rw [Outcome.bind_ok, h1, h2, h3]
  rfl

/-! ### C137: the initial state -/

theorem isotropic_eq (noise : Option ℝ) : isotropic noise = (noise.getD (1 / 1000)) ^ 2 • (1 : Matrix (Fin 3) (Fin 3) ℝ) := by
  unfold isotropic
  ext i j
  rw [Matrix.map_apply, Matrix.smul_apply, smul_eq_mul, mul_comm]

theorem halfTurnX_matrix : halfTurnX.toMatrix = nedToNwu := by
  ext i j
  fin_cases i <;> fin_cases j <;> simp [halfTurnX, Quat.toMatrix, nedToNwu] <;> norm_num

theorem halfTurnX_unit : Quat.Unit halfTurnX := by simp [Quat.Unit, halfTurnX]

/-- The turn from the reference frame of the IMU to the map. -/
def referenceTurn (reference : Option String) : Matrix (Fin 3) (Fin 3) ℝ :=
  if reference = none ∨ reference = some "NED" then nedToNwu else 1

theorem unit_ne_zero {q : Quat} (h : Quat.Unit q) : q ≠ zeroQuat := by
  rintro rfl
  simp [Quat.Unit, zeroQuat] at h

theorem bodyFrameOrientation_spec {f : Frames} {X : Iso ℝ} (h : Mounted f "imu" X) (reference : Option String) {imu : Imu}
    (hq : Quat.Unit imu.orientation) :
    ∃ q, bodyFrameOrientation f reference imu = .ok q ∧ Quat.Unit q ∧
      q.toMatrix * X.R = referenceTurn reference * imu.orientation.toMatrix := by
  have hY : Quat.Rotation X⁻¹.R := rotation_of_rigid h.rigid.inv
  have hu := Quat.ofMatrix_unit hY
  have ho : (imu.orientation * Quat.ofMatrix X⁻¹.R).toMatrix * X.R = imu.orientation.toMatrix := by
    rw [Quat.toMatrix_mul hq hu, Quat.toMatrix_ofMatrix hY, Iso.inv_R, Matrix.mul_assoc, h.rigid.orthogonal, Matrix.mul_one]
  unfold bodyFrameOrientation
  rw [if_neg (unit_ne_zero hq), h.toBody, Outcome.bind_ok]
  refine ⟨_, rfl, ?_⟩
  by_cases hr : reference = none ∨ reference = some "NED"
  · have : reference.getD "NED" = "NED" := by rcases hr with rfl | rfl <;> rfl
    rw [if_pos this]
    refine ⟨halfTurnX_unit.mul (hq.mul hu), ?_⟩
    unfold referenceTurn
    rw [if_pos hr, Quat.toMatrix_mul halfTurnX_unit (hq.mul hu), Matrix.mul_assoc, ho, halfTurnX_matrix]
  · have : reference.getD "NED" ≠ "NED" := by
      cases reference with
      | none => exact absurd (.inl rfl) hr
      | some s => intro e; exact hr (.inr (congrArg some e))
    rw [if_neg this]
    refine ⟨hq.mul hu, ?_⟩
    unfold referenceTurn
    rw [if_neg hr, Matrix.one_mul, ho]

theorem initialOdometry_ok {f : Frames} {p : InitialParams} {imu : Imu} {q : Quat} (eq : bodyFrameOrientation f p.reference imu = .ok q)
    {id : String} (hid : BodyFrames.bodyFrameId f.frames = .ok id) (t : Int) :
    ∃ m prior, initialOdometry f p imu t = .ok m ∧ readInitial m = .ok prior ∧ m.header.stamp = t ∧ m.header.frameId = p.mapFrame ∧
      m.childFrameId = id ∧ fromVector3 m.twist.twist.angular = imu.angularVelocity ∧ prior.stamp = t ∧
      prior.pose.R = q.toMatrix ∧ prior.pose.t = (fun i => (p.position i).getD 0) ∧
      prior.velocity = (fun i => (p.velocity i).getD 0) ∧
      Independent prior.poseCov (isotropic p.rotationNoise) (isotropic p.positionNoise) ∧
      prior.velocityCov = isotropic p.velocityNoise ∧
      ∃ C, RosCovariance m.twist.covariance C ∧ Independent C imu.angularVelocityCov (isotropic p.velocityNoise) := by
  let o : Odometry := ⟨Pose.ofCovariances ![(p.position 0).getD 0, (p.position 1).getD 0, (p.position 2).getD 0] q
    (isotropic p.positionNoise) (isotropic p.rotationNoise), Twist.ofCovariances ![(p.velocity 0).getD 0, (p.velocity 1).getD 0,
    (p.velocity 2).getD 0] imu.angularVelocity (isotropic p.velocityNoise) imu.angularVelocityCov, t, p.mapFrame, id⟩
  obtain ⟨a, b, e, r1, r2, back⟩ := C46_odometry o Odometry.default OdometryMsg.empty rfl rfl
  refine ⟨⟨⟨0, t, p.mapFrame⟩, id, ⟨toPose o.pose, a⟩, ⟨toTwist o.twist, b⟩⟩,
    ⟨⟨q.toMatrix, o.pose.position⟩, t, o.twist.linear, o.pose.covariance, o.twist.linearCovariance⟩, ?_, ?_, rfl, rfl, rfl, ?_, rfl, rfl,
    ?_, ?_, ?_, ?_, o.twist.covariance, r2, ?_⟩
  · unfold initialOdometry
    rw [eq, Outcome.bind_ok]
    dsimp only
    rw [hid, Outcome.bind_ok]
    exact e
  · unfold readInitial
    have back : fromOdometry ⟨⟨0, t, p.mapFrame⟩, id, ⟨toPose o.pose, a⟩, ⟨toTwist o.twist, b⟩⟩ Odometry.default = .ok o := back
    rw [back, Outcome.bind_ok]
    rfl
  · exact (C46_vector3 imu.angularVelocity Vector3Msg.empty).2.2.2.1
  · funext i; fin_cases i <;> rfl
  · funext i; fin_cases i <;> rfl
  · intro i j
    exact diagonalBlocks_entries _ _ i j
  · exact (C46_separate_covariances ![(p.velocity 0).getD 0, (p.velocity 1).getD 0, (p.velocity 2).getD 0] imu.angularVelocity Quat.id
      (isotropic p.velocityNoise) imu.angularVelocityCov).2.1
  · intro i j
    exact diagonalBlocks_entries _ _ i j

/-- C137. The initial state when the IMU reports its orientation in the north-west-up frame or (the default) in the north-east-down
frame: the IMU, mounted on the body, has the reported orientation, turned into the map; position and velocity are those of the
parameters (0 if not given), and the back end starts with this pose and velocity at the time `t`; the prior of the pose has the squares
of `prior_noise/rotation` and `prior_noise/position` (1 mm, 1 mrad if not given) as variances, in this order, the prior of the velocity
the square of `prior_noise/linear_velocity`. Missing: other reference frames (`C137_fails_reference`). -/
theorem C137_initial_partial {f : Frames} {X : Iso ℝ} (h : Mounted f "imu" X) {id : String}
    (hid : BodyFrames.bodyFrameId f.frames = .ok id) (p : InitialParams) {imu : Imu} (hq : Quat.Unit imu.orientation) (t : Int)
    (hr : p.reference = none ∨ p.reference = some "NED" ∨ p.reference = some "NWU") :
    ∃ m prior, initialOdometry f p imu t = .ok m ∧ readInitial m = .ok prior ∧ m.header.stamp = t ∧ m.header.frameId = p.mapFrame ∧
      m.childFrameId = id ∧ prior.stamp = t ∧
      prior.pose.R * X.R = (if p.reference = some "NWU" then 1 else nedToNwu) * imu.orientation.toMatrix ∧
      prior.pose.t = (fun i => (p.position i).getD 0) ∧ prior.velocity = (fun i => (p.velocity i).getD 0) ∧
      Independent prior.poseCov ((p.rotationNoise.getD (1 / 1000)) ^ 2 • 1) ((p.positionNoise.getD (1 / 1000)) ^ 2 • 1) ∧
      prior.velocityCov = (p.velocityNoise.getD (1 / 1000)) ^ 2 • 1 := by
  obtain ⟨q, eq, -, hm⟩ := bodyFrameOrientation_spec h p.reference hq
  obtain ⟨m, prior, e1, e2, h1, h2, h3, -, h5, h6, h7, h8, h9, h10, -⟩ := initialOdometry_ok eq hid t
  refine ⟨m, prior, e1, e2, h1, h2, h3, h5, ?_, h7, h8, ?_, ?_⟩
  · rw [h6, hm]
    unfold referenceTurn
    rcases hr with hr | hr | hr <;> rw [hr] <;> simp
  · rw [← isotropic_eq, ← isotropic_eq]; exact h9
  · rw [← isotropic_eq]; exact h10

/-- C137. An IMU without orientation (zero quaternion): the body starts without rotation, whatever its attitude is. -/
theorem C137_no_orientation {f : Frames} {id : String} (hid : BodyFrames.bodyFrameId f.frames = .ok id) (p : InitialParams) {imu : Imu}
    (hq : imu.orientation = ⟨0, 0, 0, 0⟩) (t : Int) :
    ∃ m prior, initialOdometry f p imu t = .ok m ∧ readInitial m = .ok prior ∧ prior.pose.R = 1 ∧
      prior.pose.t = (fun i => (p.position i).getD 0) ∧ prior.velocity = (fun i => (p.velocity i).getD 0) ∧ prior.stamp = t := by
  have eq : bodyFrameOrientation f p.reference imu = .ok Quat.id := by
    unfold bodyFrameOrientation
    exact if_pos hq
  obtain ⟨m, prior, e1, e2, -, -, -, -, h5, h6, h7, h8, -⟩ := initialOdometry_ok eq hid t
  exact ⟨m, prior, e1, e2, h6.trans Quat.toMatrix_id, h7, h8, h5⟩

/-- **C137 fails for other reference frames.** Any other value of `imu/reference_frame`, also a mistyped one, is taken for
north-west-up without a message; for an IMU that reports its orientation in the east-north-up frame (the convention of ROS) and the
value "ENU", the initial orientation is therefore wrong, whatever the orientation is. -/
theorem C137_fails_reference {f : Frames} {X : Iso ℝ} (h : Mounted f "imu" X) {id : String}
    (hid : BodyFrames.bodyFrameId f.frames = .ok id) (p : InitialParams) {imu : Imu} (hq : Quat.Unit imu.orientation) (t : Int)
    {reference : String} (hr : p.reference = some reference) (hne : reference ≠ "NED") :
    ∃ m prior, initialOdometry f p imu t = .ok m ∧ readInitial m = .ok prior ∧ prior.pose.R * X.R = imu.orientation.toMatrix ∧
      prior.pose.R * X.R ≠ enuToNwu * imu.orientation.toMatrix := by
  obtain ⟨q, eq, -, hm⟩ := bodyFrameOrientation_spec h p.reference hq
  obtain ⟨m, prior, e1, e2, -, -, -, -, -, h6, -⟩ := initialOdometry_ok eq hid t
  have e : prior.pose.R * X.R = imu.orientation.toMatrix := by
    rw [h6, hm]
    unfold referenceTurn
    rw [if_neg (by rw [hr]; simpa using hne), Matrix.one_mul]
  refine ⟨m, prior, e1, e2, e, fun bad => ?_⟩
  rw [e] at bad
  have o : imu.orientation.toMatrix * imu.orientation.toMatrixᵀ = 1 := mul_eq_one_comm.1 (Quat.toMatrix_orthogonal hq)
  have bad := congrArg (· * imu.orientation.toMatrixᵀ) bad
  simp only [Matrix.mul_assoc, o, Matrix.mul_one] at bad
  have := congrFun (congrFun bad 0) 0
  simp [enuToNwu] at this

/-- **C137 fails for the angular velocity.** The angular velocity of the initial odometry is that of the IMU in the frame of the IMU;
it is the one of the body in the frame of the body exactly if the mounting leaves it unchanged. -/
theorem C137_fails_angular {f : Frames} {X : Iso ℝ} (h : Mounted f "imu" X) {id : String}
    (hid : BodyFrames.bodyFrameId f.frames = .ok id) (p : InitialParams) {imu : Imu} (hq : Quat.Unit imu.orientation) (t : Int) :
    ∃ m, initialOdometry f p imu t = .ok m ∧
      (fromVector3 m.twist.twist.angular = X.R *ᵥ imu.angularVelocity ↔ X.R *ᵥ imu.angularVelocity = imu.angularVelocity) ∧
      ∃ C, RosCovariance m.twist.covariance C ∧ Independent C imu.angularVelocityCov ((p.velocityNoise.getD (1 / 1000)) ^ 2 • 1) := by
  obtain ⟨q, eq, -, -⟩ := bodyFrameOrientation_spec h p.reference hq
  obtain ⟨m, prior, e1, -, -, -, -, h4, -, -, -, -, -, -, C, c1, c2⟩ := initialOdometry_ok eq hid t
  refine ⟨m, e1, ?_, C, c1, by rw [← isotropic_eq]; exact c2⟩
  rw [h4]
  exact eq_comm

/-! ### C138: stamps of the stereo images -/

variable {I C : Type}

/-- C138. The stereo images and camera infos that are stored have one stamp, the stamp of the left image cut to microseconds;
everything else is what was received. -/
theorem C138_stored (d : StereoData I C) (h : 0 ≤ d.leftImage.header.stamp) :
    ∃ t : Int, t ≤ d.leftImage.header.stamp ∧ d.leftImage.header.stamp < t + 1000 ∧ t % 1000 = 0 ∧
      (storedStereo d).leftImage.header.stamp = t ∧ (storedStereo d).rightImage.header.stamp = t ∧
      (storedStereo d).leftInfo.header.stamp = t ∧ (storedStereo d).rightInfo.header.stamp = t := by
  refine ⟨fromPcl (toPcl d.leftImage.header.stamp), ?_, ?_, ?_, rfl, rfl, rfl, rfl⟩ <;> (unfold fromPcl toPcl; omega)

/-- C138. The rest of each message is kept. -/
theorem C138_kept (d : StereoData I C) (t : Int) :
    ∀ e : StereoData I C, e = storedStereo d ∨ e = publishedStereo d t →
      e.leftImage.data = d.leftImage.data ∧ e.rightImage.data = d.rightImage.data ∧ e.leftInfo.data = d.leftInfo.data ∧
      e.rightInfo.data = d.rightInfo.data ∧ e.leftImage.header.frameId = d.leftImage.header.frameId ∧
      e.rightImage.header.frameId = d.rightImage.header.frameId ∧ e.leftInfo.header.frameId = d.leftInfo.header.frameId ∧
      e.rightInfo.header.frameId = d.rightInfo.header.frameId ∧ e.leftImage.header.seq = d.leftImage.header.seq ∧
      e.rightImage.header.seq = d.rightImage.header.seq ∧ e.leftInfo.header.seq = d.leftInfo.header.seq ∧
      e.rightInfo.header.seq = d.rightInfo.header.seq := by
  rintro e (rfl | rfl)
  · exact ⟨rfl, rfl, rfl, rfl, rfl, rfl, rfl, rfl, rfl, rfl, rfl, rfl⟩
  · unfold publishedStereo
    split <;> exact ⟨rfl, rfl, rfl, rfl, rfl, rfl, rfl, rfl, rfl, rfl, rfl, rfl⟩

/-- C138. What is published for stored data: with a time, all four messages carry that time; without (time 0), the stamp they were
stored with. -/
theorem C138_published (d : StereoData I C) (t : Int) :
    let s := storedStereo d
    let e := publishedStereo s t
    let u := if t = 0 then s.leftImage.header.stamp else t
    e.leftImage.header.stamp = u ∧ e.rightImage.header.stamp = u ∧ e.leftInfo.header.stamp = u ∧ e.rightInfo.header.stamp = u := by
  intro s e u
  by_cases h0 : t = 0
  · have he : e = s := if_pos (.inl h0)
    have hu : u = s.leftImage.header.stamp := if_pos h0
    rw [he, hu]
    exact ⟨rfl, rfl, rfl, rfl⟩
  · have hu : u = t := if_neg h0
    rw [hu]
    by_cases h1 : s.leftImage.header.stamp = t
    · have he : e = s := if_pos (.inr h1)
      rw [he]
      exact ⟨h1, h1, h1, h1⟩
    · have he : e = ⟨s.leftImage.stamped t, s.rightImage.stamped t, s.leftInfo.stamped t, s.rightInfo.stamped t⟩ :=
        if_neg (by tauto)
      rw [he]
      exact ⟨rfl, rfl, rfl, rfl⟩

/-- C138. The cut makes stamps comparable with those of point clouds: a stored stamp comes back from the stamp of a point cloud, and
the stereo images belong to a cloud of the same time exactly if both fall into the same microsecond. -/
theorem C138_comparable (s t : Int) (hs : 0 ≤ s) (ht : 0 ≤ t) :
    fromPcl (toPcl (fromPcl (toPcl s))) = fromPcl (toPcl s) ∧ (fromPcl (toPcl s) = fromPcl (toPcl t) ↔ s / 1000 = t / 1000) := by
  unfold fromPcl toPcl
  constructor <;> omega

/-! ### C139: the optimised odometry -/

/-- C139. The optimised odometry: time, map and body frames, pose and velocity of the optimised state; the covariance of the pose in
the order of ROS, but zeros when stereo factors are used; angular velocity and covariance of the twist are zero. -/
theorem C139_fields {f : Frames} {id : String} (hid : BodyFrames.bodyFrameId f.frames = .ok id) (mapFrame : String) (stereo : Bool)
    (P : Pose3) (hP : Rigid (isoOf P)) (cov : Matrix (Fin 6) (Fin 6) ℝ) (v : Fin 3 → ℝ) (t : Int) :
    ∃ m, optimisedOdometry f mapFrame stereo P cov v t = .ok m ∧ SizedOdometry m ∧ m.header.stamp = t ∧ m.header.frameId = mapFrame ∧
      m.childFrameId = id ∧ fromPoint m.pose.pose.position = P.t ∧ HasRotation m.pose.pose.orientation P.R ∧
      fromVector3 m.twist.twist.linear = v ∧ fromVector3 m.twist.twist.angular = 0 ∧ m.twist.covariance = List.replicate 36 0 ∧
      RosCovariance m.pose.covariance (if stereo then 0 else cov) := by
  obtain ⟨a, ha, hr⟩ := writeArray_spec OdometryMsg.empty.pose.covariance (cov.submatrix rosOrder rosOrder) rfl
  have hz : RosCovariance (List.replicate 36 (0 : ℝ)) 0 := by
    refine ⟨rfl, fun i j => ?_⟩
    rw [List.getElem?_replicate, if_pos (by have := i.2; have := j.2; omega)]
    rfl
  have zero3 : fromVector3 Vector3Msg.empty = 0 := by funext i; fin_cases i <;> rfl
  cases stereo
  · refine ⟨⟨⟨0, t, mapFrame⟩, id, ⟨⟨toPoint P.t, toQuaternion (Quat.ofMatrix P.R)⟩, a⟩, ⟨⟨toVector3 v, .empty⟩, List.replicate 36 0⟩⟩,
      ?_, ⟨hr.1, rfl⟩, rfl, rfl, rfl, (C46_point P.t PointMsg.empty).2.2.2.1, hasRotation_of (rotation_of_rigid hP),
      (C46_vector3 v Vector3Msg.empty).2.2.2.1, zero3, rfl, hr⟩
    unfold optimisedOdometry toFixedArray
    rw [hid, Outcome.bind_ok, if_neg (by simp), reorder_six, Outcome.bind_ok, ha, Outcome.bind_ok]
    rfl
  · refine ⟨⟨⟨0, t, mapFrame⟩, id, ⟨⟨toPoint P.t, toQuaternion (Quat.ofMatrix P.R)⟩, List.replicate 36 0⟩,
      ⟨⟨toVector3 v, .empty⟩, List.replicate 36 0⟩⟩,
      ?_, ⟨rfl, rfl⟩, rfl, rfl, rfl, (C46_point P.t PointMsg.empty).2.2.2.1, hasRotation_of (rotation_of_rigid hP),
      (C46_vector3 v Vector3Msg.empty).2.2.2.1, zero3, rfl, hz⟩
    unfold optimisedOdometry
    rw [hid, Outcome.bind_ok, if_pos rfl, Outcome.bind_ok]
    rfl

/-- C139. From the back end to the front end: the state that the front end stores is the optimised state, whether or not its outputs
can be sent. -/
theorem C139_round_trip {f g : Frames} {id : String} (hid : BodyFrames.bodyFrameId f.frames = .ok id) (mapFrame : String) (stereo : Bool)
    (P : Pose3) (hP : Rigid (isoOf P)) (cov : Matrix (Fin 6) (Fin 6) ℝ) (v : Fin 3 → ℝ) (t : Int) :
    ∃ m, optimisedOdometry f mapFrame stereo P cov v t = .ok m ∧
      ∀ x out, onOptimised g m = .ok (x, out) → x = ⟨P.R, P.t, v⟩ := by
  obtain ⟨m, e, hs, -, -, -, h4, h5, h6, -⟩ := C139_fields hid mapFrame stereo P hP cov v t
  refine ⟨m, e, fun x out k => ?_⟩
  obtain ⟨o, eo, o1, o2, o3, -⟩ := fromOdometry_fields hs
  unfold onOptimised at k
  rw [eo, Outcome.bind_ok] at k
  cases eout : outputs g m o with
  | ok l =>
    rw [eout, Outcome.bind_ok] at k
    have := congrArg Prod.fst (Outcome.ok.inj k)
    have this : _ = x := this
    rw [← this, o1, o2, o3, h4, h6, h5.2]
  | throws => rw [eout] at k; cases k
  | ub => rw [eout] at k; cases k

/-- C139. The velocity between two poses is the one that moves the first position to the second in the time between them; with
no time between them there is no such velocity and the model divides by zero (in floating point: infinite or not a number). -/
theorem C139_velocity (previous current : Pose3) (dt : Int) (h : dt ≠ 0) (i : Fin 3) :
    previous.t i + ((dt : ℝ) / 1000000000) * velocityFromPoses previous current dt i = current.t i := by
  have hd : ((dt : ℝ) / 1000000000) ≠ 0 := by
    have : (dt : ℝ) ≠ 0 := by exact_mod_cast h
    positivity
  have key : velocityFromPoses previous current dt i = (current.t i - previous.t i) / ((dt : ℝ) / 1000000000) := by
    unfold velocityFromPoses
    rw [toEigen_eq, toEigen_eq]
    fin_cases i <;> rfl
  rw [key, mul_div_cancel₀ _ hd]
  ring

/-! ### C140: preintegration parameters -/

theorem isValidCovariance_bool (M : Matrix (Fin 3) (Fin 3) ℝ) : ∃ b, isValidCovariance M 0 = .ok b ∧ (b = true ↔ M.PosDef) := by
  obtain ⟨b, hb, -⟩ := C42_valid M 0
  refine ⟨b, hb, ?_⟩
  rw [← C42_default, hb]
  exact ⟨fun h => by rw [h], fun h => Outcome.ok.inj h⟩

/-- C140. The check of the preintegration parameters: true exactly if gravity is not zero and the three covariances are positive
definite. -/
theorem C140_check (p : PreintParams) : ∃ b, checkValid p = .ok b ∧
    (b = true ↔ p.gravity ≠ 0 ∧ p.accelerometerCov.PosDef ∧ p.gyroscopeCov.PosDef ∧ p.integrationCov.PosDef) := by
  have hg : (Real.sqrt (p.gravity 0 ^ 2 + p.gravity 1 ^ 2 + p.gravity 2 ^ 2) > 0) ↔ p.gravity ≠ 0 := by
    rw [gt_iff_lt, Real.sqrt_pos]
    constructor
    · rintro h e
      rw [e] at h
      simp at h
    · intro h
      by_contra hn
      refine h ?_
      have h0 := sq_nonneg (p.gravity 0)
      have h1 := sq_nonneg (p.gravity 1)
      have h2 := sq_nonneg (p.gravity 2)
      have z0 : p.gravity 0 = 0 := pow_eq_zero_iff two_ne_zero |>.1 (by linarith)
      have z1 : p.gravity 1 = 0 := pow_eq_zero_iff two_ne_zero |>.1 (by linarith)
      have z2 : p.gravity 2 = 0 := pow_eq_zero_iff two_ne_zero |>.1 (by linarith)
      funext i
      fin_cases i
      · exact z0
      · exact z1
      · exact z2
  obtain ⟨a, ea, ha⟩ := isValidCovariance_bool p.accelerometerCov
  obtain ⟨g, eg, hgy⟩ := isValidCovariance_bool p.gyroscopeCov
  obtain ⟨c, ec, hc⟩ := isValidCovariance_bool p.integrationCov
  unfold checkValid
  by_cases h : p.gravity ≠ 0
  · rw [if_pos (hg.2 h), ea, Outcome.bind_ok]
    cases a
    · exact ⟨false, rfl, by simp [← ha]⟩
    · rw [if_pos rfl, eg, Outcome.bind_ok]
      cases g
      · exact ⟨false, rfl, by simp [← hgy]⟩
      · rw [if_pos rfl]
        exact ⟨c, ec, by rw [hc]; exact ⟨fun k => ⟨h, ha.1 rfl, hgy.1 rfl, k⟩, fun k => k.2.2.2⟩⟩
  · rw [if_neg (by rw [hg]; exact h)]
    exact ⟨false, rfl, by simp only [Bool.false_eq_true, false_iff]; exact fun k => h k.1⟩

/-- C140. Updating the parameters: accepted exactly if the updated parameters are valid, an exception otherwise; in both cases the
new covariances are in place afterwards and the rest is unchanged. -/
theorem C140_update (p : PreintParams) (acc gyro : Matrix (Fin 3) (Fin 3) ℝ) :
    ((updateParams p acc gyro).1 = .ok () ↔ p.gravity ≠ 0 ∧ acc.PosDef ∧ gyro.PosDef ∧ p.integrationCov.PosDef) ∧
    ((updateParams p acc gyro).1 = .throws ↔ ¬ (p.gravity ≠ 0 ∧ acc.PosDef ∧ gyro.PosDef ∧ p.integrationCov.PosDef)) ∧
    (updateParams p acc gyro).2 = ⟨p.gravity, acc, gyro, p.integrationCov⟩ := by
  obtain ⟨b, e, hb⟩ := C140_check { p with accelerometerCov := acc, gyroscopeCov := gyro }
  unfold updateParams
  dsimp only
  rw [e]
  refine ⟨?_, ?_, rfl⟩
  · rw [← hb]; cases b <;> simp
  · rw [← hb]; cases b <;> simp

theorem posDef_isotropic (noise : Option ℝ) : (isotropic noise).PosDef ↔ noise ≠ some 0 := by
  rw [isotropic_eq]
  constructor
  · rintro h rfl
    have := h.diag_pos (i := 0)
    simp at this
  · intro h
    have h0 : noise.getD (1 / 1000) ≠ 0 := by
      cases noise with
      | none => simp
      | some x => exact fun e => h (congrArg some e)
    exact Matrix.PosDef.one.smul (by positivity)

/-- C140. With `imu/noise/overwrite` the updates succeed for every measurement and never fail, provided that none of the three noise
parameters and gravity is set to zero; a noise of zero makes every update fail. -/
theorem C140_overwrite (gravity integration a g : Option ℝ) (acc gyro : Matrix (Fin 3) (Fin 3) ℝ) (imu : Imu) :
    (updateParams (newParams gravity integration acc gyro) (received (some (a, g)) imu).linearAccelerationCov
      (received (some (a, g)) imu).angularVelocityCov).1 = .ok () ↔
      gravity ≠ some 0 ∧ integration ≠ some 0 ∧ a ≠ some 0 ∧ g ≠ some 0 := by
  rw [(C140_update _ _ _).1]
  have hg : (newParams gravity integration acc gyro).gravity ≠ 0 ↔ gravity ≠ some 0 := by
    unfold newParams
    dsimp only
    constructor
    · rintro h rfl
      refine h ?_
      funext i; fin_cases i <;> simp
    · intro h e
      have := congrFun e 2
      cases gravity with
      | none => simp at this
      | some x => exact h (congrArg some (by simpa using this))
  rw [hg]
  have e1 : (received (some (a, g)) imu).linearAccelerationCov = isotropic a := rfl
  have e2 : (received (some (a, g)) imu).angularVelocityCov = isotropic g := rfl
  have e3 : (newParams gravity integration acc gyro).integrationCov = isotropic integration := rfl
  rw [e1, e2, e3, posDef_isotropic, posDef_isotropic, posDef_isotropic]
  tauto

/-- C140. Gravity acts down the z axis of the world with the size of the parameter (9.81 by default), before and after updates: an
accelerometer at rest in any attitude `R` measures the support against gravity, which the preintegration cancels, and a body in free
fall (measuring nothing) is accelerated downwards. -/
theorem C140_gravity (gravity integration : Option ℝ) (acc gyro acc' gyro' : Matrix (Fin 3) (Fin 3) ℝ) (R : Matrix (Fin 3) (Fin 3) ℝ)
    (hR : R * Rᵀ = 1) :
    let p := (updateParams (newParams gravity integration acc gyro) acc' gyro').2
    let g := match gravity with
      | none => 981 / 100
      | some g => g
    R *ᵥ (Rᵀ *ᵥ ![0, 0, g]) + p.gravity = 0 ∧ (0 < g → R *ᵥ (0 : Fin 3 → ℝ) + p.gravity = g • ![0, 0, -1]) ∧
    p.integrationCov = isotropic integration := by
  intro p g
  have e : p = ⟨(newParams gravity integration acc gyro).gravity, acc', gyro', isotropic integration⟩ := (C140_update _ _ _).2.2
  have eg : p.gravity = ![0, 0, -g] := by
    rw [e]
    cases gravity <;> rfl
  rw [eg, mulVec_mulVec, hR, one_mulVec, mulVec_zero]
  refine ⟨?_, fun _ => ?_, by rw [e]⟩
  · funext i; fin_cases i <;> simp
  · funext i; fin_cases i <;> simp

/-- C140. A measurement that is interpolated between two measurements with positive definite covariances is accepted, if gravity and
the integration noise are. -/
theorem C140_interpolated {a b m : Imu} {t : Int} (h : interpolateMeasurements a b t = .ok m) (p : PreintParams) (hg : p.gravity ≠ 0)
    (hi : p.integrationCov.PosDef) (ha : a.linearAccelerationCov.PosDef ∧ a.angularVelocityCov.PosDef)
    (hb : b.linearAccelerationCov.PosDef ∧ b.angularVelocityCov.PosDef) :
    (updateParams p m.linearAccelerationCov m.angularVelocityCov).1 = .ok () := by
  rw [(C140_update _ _ _).1]
  refine ⟨hg, ?_⟩
  suffices hm : m.linearAccelerationCov.PosDef ∧ m.angularVelocityCov.PosDef from ⟨hm.1, hm.2, hi⟩
  unfold interpolateMeasurements interpolateImu at h
  split at h
  · cases h
  · split at h
    · rw [Outcome.bind_ok] at h
      rw [← Outcome.ok.inj h]
      exact ha
    · dsimp only at h
      rw [Outcome.bind_ok] at h
      rw [← Outcome.ok.inj h]
      unfold Imu.ofData
      dsimp only
      split
      · exact ha
      · exact hb

/-- **C140 fails without overwriting for a driver that reports no covariances.** Measurements whose covariances are zero (ROS:
"unknown") are refused by every update, and the message that the exception stops would have set the new bias (`C132`). -/
theorem C140_fails_unknown_covariance (p : PreintParams) (imu : Imu) (h : imu.linearAccelerationCov = 0 ∨ imu.angularVelocityCov = 0) :
    (updateParams p (received none imu).linearAccelerationCov (received none imu).angularVelocityCov).1 = .throws := by
  rw [(C140_update _ _ _).2.1]
  rintro ⟨-, h1, h2, -⟩
  have no : ¬ (0 : Matrix (Fin 3) (Fin 3) ℝ).PosDef := fun k => by
    have := k.diag_pos (i := 0)
    simp at this
  rcases h with h | h
  · exact no (by rw [← h]; exact h1)
  · exact no (by rw [← h]; exact h2)

/-! ### The hypotheses are met -/

/-- `C135_twist_partial`: a body that has turned about z and moves up, with an IMU turned by 90 degrees that measures a rotation
about its x axis; the body turns about its y axis. -/
example : ∃ m, imuOdometry sampleFrames "map" ⟨0, 0⟩ ⟨turned.R, ![1, 2, 3], ![0, 0, 1]⟩
      ⟨Quat.id, ![1, 0, 0], ![0, 0, 9], 0, 0, 0, 5, "imu"⟩ = .ok m ∧
    fromVector3 m.twist.twist.angular = ![0, 1, 0] := by
  obtain ⟨m, e, -, h⟩ := C135_twist_partial sampleFrames_imu (id := "base_link") rfl "map" ⟨0, 0⟩ ⟨turned.R, ![1, 2, 3], ![0, 0, 1]⟩
    ⟨Quat.id, ![1, 0, 0], ![0, 0, 9], 0, 0, 0, 5, "imu"⟩ ⟨turned_rigid.orthogonal, turned_rigid.det⟩ rfl (by
      funext i; fin_cases i <;> simp [turned, Matrix.mulVec, dotProduct, Fin.sum_univ_three])
  refine ⟨m, e, ?_⟩
  rw [h]
  funext i
  fin_cases i <;> simp [turned, Matrix.mulVec, dotProduct, Fin.sum_univ_three]

/-- A body whose `base_link` is the frame `quarter` on it. -/
def offFrames : Frames where
  tf := fun _ _ _ => none
  frames :=
    { body := "imu"
      frameIds := [("base_link", "base_link"), ("imu", "imu")]
      frames := [("base_link", "base_link"), ("imu", "imu")]
      lookedup := [("base_link", false), ("imu", false)]
      dynamic := [("base_link", false), ("imu", false)]
      aliases := [("base_link", []), ("imu", [])]
      bodyToFrame := [("base_link", 1 * quarter), ("imu", 1)]
      frameToBody := [("base_link", (1 * quarter)⁻¹), ("imu", 1)] }

/-- It is what the constructor builds. -/
example : BodyFrames.create offFrames.tf ⟨"imu", none, some (.cons "base_link" ⟨none, none, none, none, some quarter⟩ false .nil .nil)⟩ =
    .ok offFrames.frames := rfl

theorem offFrames_baseLink (t : Int) : BaseLink offFrames t quarter :=
  .inr ⟨by decide, by conv_rhs => rw [← Iso.one_mul quarter]
                      rfl⟩

/-- An odometry message. -/
noncomputable def sampleOdometry : OdometryMsg :=
  ⟨⟨3, 42, "map"⟩, "imu", ⟨⟨⟨1, 2, 3⟩, ⟨0, 0, 1, 0⟩⟩, List.replicate 36 1⟩, ⟨⟨⟨4, 5, 6⟩, ⟨0, 0, 0⟩⟩, List.replicate 36 0⟩⟩

/-- `C136_sent`, `C136_fails_pose`. -/
example : ∃ x tf p, onOptimised offFrames sampleOdometry = .ok (x, [.tf tf, .pose p]) ∧
    messagePose p.pose.pose ≠ fromTransformIso tf.transform := by
  obtain ⟨x, tf, p, e, h⟩ := C136_fails_pose (msg := sampleOdometry) ⟨rfl, rfl⟩ (offFrames_baseLink _) quarter_rigid
    (by simp [Quat.Unit, fromQuaternion, sampleOdometry]) (id := "base_link") rfl
  refine ⟨x, tf, p, e, fun k => ?_⟩
  have := congrArg (fun T : Iso ℝ => T.R 0 0) (h.1 k)
  simp [quarter, Iso.one_R] at this

/-- `C136_pose_partial`. -/
example : ∃ x tf p, onOptimised sampleFrames sampleOdometry = .ok (x, [.tf tf, .pose p]) ∧
    messagePose p.pose.pose = fromTransformIso tf.transform :=
  C136_pose_partial (msg := sampleOdometry) ⟨rfl, rfl⟩ rfl (by simp [Quat.Unit, fromQuaternion, sampleOdometry]) (id := "base_link") rfl

/-- `C136_lookup_fails`: a dynamic `base_link` without a transform. -/
example : ∃ x, onOptimised ⟨fun _ _ _ => none, { offFrames.frames with dynamic := [("base_link", true), ("imu", false)] }⟩ sampleOdometry =
    .ok (x, []) :=
  ⟨_, C136_lookup_fails ⟨rfl, rfl⟩ (by decide) rfl⟩

/-- `C137_initial_partial`: the IMU is turned by 90 degrees on the body and reports half a turn about x in the north-east-down frame,
so that it is upright; the default parameters. -/
example : ∃ m prior, initialOdometry sampleFrames ⟨none, none, none, none, fun _ => none, fun _ => none, "map"⟩
      ⟨halfTurnX, 0, ![0, 0, 9], 0, 0, 0, 5, "imu"⟩ 7 = .ok m ∧ readInitial m = .ok prior ∧ prior.pose.R * turned.R = 1 ∧
      prior.pose.t = 0 ∧ prior.stamp = 7 := by
  obtain ⟨m, prior, e1, e2, -, -, -, h1, h2, h3, -⟩ := C137_initial_partial sampleFrames_imu (id := "base_link") rfl
    ⟨none, none, none, none, fun _ => none, fun _ => none, "map"⟩ (imu := ⟨halfTurnX, 0, ![0, 0, 9], 0, 0, 0, 5, "imu"⟩) halfTurnX_unit 7
    (.inl rfl)
  refine ⟨m, prior, e1, e2, ?_, h3, h1⟩
  rw [h2, if_neg (by simp)]
  show nedToNwu * halfTurnX.toMatrix = 1
  rw [halfTurnX_matrix]
  ext i j
  fin_cases i <;> fin_cases j <;> simp [nedToNwu, Matrix.mul_apply, Fin.sum_univ_three]

/-- `C137_fails_reference`. -/
example : ∃ m prior, initialOdometry sampleFrames ⟨some "ENU", none, none, none, fun _ => none, fun _ => none, "map"⟩
      ⟨Quat.id, 0, ![0, 0, 9], 0, 0, 0, 5, "imu"⟩ 7 = .ok m ∧ readInitial m = .ok prior ∧ prior.pose.R * turned.R = Quat.id.toMatrix ∧
      prior.pose.R * turned.R ≠ enuToNwu * Quat.id.toMatrix :=
  C137_fails_reference sampleFrames_imu (id := "base_link") rfl
    ⟨some "ENU", none, none, none, fun _ => none, fun _ => none, "map"⟩ (imu := ⟨Quat.id, 0, ![0, 0, 9], 0, 0, 0, 5, "imu"⟩) Quat.Unit.id 7
    rfl (by decide)

/-- C138: the right image was taken 20 microseconds after the left one; all four get the stamp of the left one without its
nanoseconds. -/
example : let d : StereoData Nat Nat := ⟨⟨⟨0, 123456789, "l"⟩, 1⟩, ⟨⟨0, 123476789, "r"⟩, 2⟩, ⟨⟨0, 123456789, "l"⟩, 3⟩, ⟨⟨0, 123476789, "r"⟩, 4⟩⟩
    (storedStereo d).rightImage.header.stamp = 123456000 ∧ (storedStereo d).rightImage.header.frameId = "r" ∧
    (publishedStereo (storedStereo d) 5000).leftInfo.header.stamp = 5000 := by decide

/-- `C139_round_trip`. -/
example : ∃ m, optimisedOdometry sampleFrames "map" false ⟨turned.R, ![1, 2, 3]⟩ 1 ![4, 5, 6] 7 = .ok m ∧
    ∀ x out, onOptimised offFrames m = .ok (x, out) → x = ⟨turned.R, ![1, 2, 3], ![4, 5, 6]⟩ :=
  C139_round_trip (id := "base_link") rfl "map" false ⟨turned.R, ![1, 2, 3]⟩ ⟨turned_rigid.orthogonal, turned_rigid.det⟩ 1 ![4, 5, 6] 7

/-- C140: the parameters that the nodes start with are valid for a measurement with unit covariances. -/
example : (updateParams (newParams none none 0 0) 1 1).1 = .ok () :=
  (C140_update _ _ _).1.2 ⟨fun e => by have := congrFun e 2; simp [newParams] at this, Matrix.PosDef.one, Matrix.PosDef.one,
    (posDef_isotropic none).2 (by simp)⟩

/-- `C140_gravity`: a body lying on its side. -/
example : (!![1, 0, 0; 0, 0, -1; 0, 1, 0] : Matrix (Fin 3) (Fin 3) ℝ) * (!![1, 0, 0; 0, 0, -1; 0, 1, 0])ᵀ = 1 := by
  funext i j; fin_cases i <;> fin_cases j <;> simp [Matrix.mul_apply, Fin.sum_univ_three]

end Motion

end Serpent
