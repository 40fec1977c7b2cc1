import Verif.Props.Robots
import Verif.Props.MotionDeskew
import Verif.Props.MotionState

/-!
# C133, C137: deskewing and the initial state on the robots of the data sets
-/

namespace Serpent

namespace Motion

open EigenExt EigenRos Matrix

/-- C133, for a body that does not turn during the sweep: the skew transform is the motion of the lidar exactly if the rotation of the
mounting, applied twice, leaves the direction of the motion (in the frame of the body) unchanged. -/
theorem C133_straight {f : Frames} {X : Iso ℝ} (h : Mounted f "lidar" X) (first last : NavState) (hf : Rigid (bodyPose first))
    (hR : last.R = first.R) :
    ∃ S, skewTransform f true true first last = .ok S ∧
      (IsSensorMotion (bodyPose first) (bodyPose last) X S ↔
        X.R *ᵥ (X.R *ᵥ (first.Rᵀ *ᵥ (last.t - first.t))) = first.Rᵀ *ᵥ (last.t - first.t)) := by
  obtain ⟨S, e, hS⟩ := C133_skew_iff h first last hf
  refine ⟨S, e, hS.trans ?_⟩
  have eR : ((bodyPose first)⁻¹ * bodyPose last).R = 1 := by
    rw [Iso.mul_R, Iso.inv_R]
    show first.Rᵀ * last.R = 1
    rw [hR]
    exact hf.orthogonal
  have et : ((bodyPose first)⁻¹ * bodyPose last).t = first.Rᵀ *ᵥ (last.t - first.t) := by
    rw [Iso.mul_t, Iso.inv_R, Iso.inv_t]
    show first.Rᵀ *ᵥ last.t + -(first.Rᵀ *ᵥ first.t) = _
    rw [Matrix.mulVec_sub, sub_eq_add_neg]
  generalize (bodyPose first)⁻¹ * bodyPose last = T at eR et
  rw [← et]
  constructor
  · intro k
    have k := congrArg Iso.t k
    rw [Iso.mul_t, Iso.mul_t T, Iso.mul_R, eR, one_mulVec, ← Matrix.mulVec_mulVec, add_comm] at k
    exact add_left_cancel k
  · intro k
    ext1
    · rw [Iso.mul_R, Iso.mul_R T, eR, Matrix.mul_one, Matrix.one_mul]
    · rw [Iso.mul_t, Iso.mul_t T, Iso.mul_R, eR, one_mulVec, ← Matrix.mulVec_mulVec, k, add_comm]

end Motion

namespace Robots

open BodyFrames EigenExt EigenRos Motion Matrix

variable {tf : TF (Iso ℝ)} {s : St (Iso ℝ)} {c : Config (Iso ℝ)}

theorem mounted (h : create tf c = .ok s) (hf : Plain c.forest) {x : Decl (Iso ℝ)} (hx : c.Has tf x) (tf' : TF (Iso ℝ)) :
    Mounted ⟨tf', s⟩ x.name (compose x.path) := by
  obtain ⟨h1, h2, -⟩ := plain_has hx hf
  obtain ⟨i1, i2⟩ := static_any h hx h1 tf' 0
  exact ⟨rigid_compose _ h2, i1, i2⟩

theorem mounted_fixed (h : create tf c = .ok s) (hf : Plain c.forest) {n : String} {X : Iso ℝ} {i : String}
    (hx : c.Has tf ⟨n, i, false, [], false, [X]⟩) (tf' : TF (Iso ℝ)) : Mounted ⟨tf', s⟩ n X := by
  have := mounted h hf hx tf'
  simpa only [compose, Iso.mul_one] using this

/-- The mounting of the lidar of the snowboard: 60 cm ahead, 4 cm to the left, turned by 7 degrees about the y axis. -/
noncomputable def snowboardLidar : Iso ℝ := nodeTransform (some (some 0.6, some 0.04, some 0)) (some ⟨0.9981348, 0, -0.0610485, 0⟩)

theorem snowboardLidar_R : ∃ a b : ℝ, snowboardLidar.R = !![a, 0, -b; 0, 1, 0; b, 0, a] ∧ a * a + b * b = 1 ∧ 0 < b ∧ 0 < a := by
  have hz : (0 : ℝ) < 0.9981348 * 0.9981348 + 0 * 0 + -0.0610485 * -0.0610485 + 0 * 0 := by norm_num
  have hs := Real.mul_self_sqrt hz.le
  have hp := Real.sqrt_pos.2 hz
  have e : snowboardLidar.R = (normalizeQuat ⟨0.9981348, 0, -0.0610485, 0⟩).toMatrix := rfl
  rw [e]
  unfold normalizeQuat
  dsimp only
  rw [if_pos hz]
  generalize Real.sqrt (0.9981348 * 0.9981348 + 0 * 0 + -0.0610485 * -0.0610485 + 0 * 0 : ℝ) = r at hs hp
  have hr : r * r = 0.9981348 * 0.9981348 + 0.0610485 * 0.0610485 := by rw [hs]; norm_num
  refine ⟨1 - 2 * (0.0610485 * 0.0610485) / (r * r), 2 * (0.9981348 * 0.0610485) / (r * r), ?_, ?_, ?_, ?_⟩
  · ext i j
    fin_cases i <;> fin_cases j <;> simp [Quat.toMatrix] <;> field_simp
  · rw [hr]; norm_num
  · rw [hr]; norm_num
  · rw [hr]; norm_num

theorem snowboard_lidar (h : create tf snowboard = .ok s) (tf' : TF (Iso ℝ)) : Mounted ⟨tf', s⟩ "lidar" snowboardLidar :=
  mounted_fixed h (plain_robots (Params.snowboard, snowboard) (by simp [robots])) (.below (.next (declares_fixed _ _))) tf'

/-- **C133 fails on the snowboard.** Both parts of the motion are corrected there, and whenever the snowboard moves without turning,
the skew transform is the motion of the lidar only if it moves exactly sideways: for every motion ahead it is another one. -/
theorem C133_fails_snowboard (tf tf' : TF (Iso ℝ)) : ∃ s, create tf snowboard = .ok s ∧
    ("mdc/translation", Params.Value.bool true) ∈ Params.snowboard.files ∧ ("mdc/rotation", Params.Value.bool true) ∈ Params.snowboard.files ∧
    ∀ first last : NavState, Rigid (bodyPose first) → last.R = first.R →
      ∃ X S, Mounted ⟨tf', s⟩ "lidar" X ∧ skewTransform ⟨tf', s⟩ true true first last = .ok S ∧
        (IsSensorMotion (bodyPose first) (bodyPose last) X S ↔ ∃ y : ℝ, first.Rᵀ *ᵥ (last.t - first.t) = ![0, y, 0]) := by
  obtain ⟨s, h⟩ := robot_created (show (Params.snowboard, snowboard) ∈ robots by simp [robots]) tf
  refine ⟨s, h, by decide +kernel, by decide +kernel, fun first last hf hR => ?_⟩
  have hm := snowboard_lidar h tf'
  obtain ⟨S, e, hS⟩ := C133_straight hm first last hf hR
  refine ⟨_, S, hm, e, hS.trans ?_⟩
  obtain ⟨a, b, hX, hn, hb, ha⟩ := snowboardLidar_R
  generalize first.Rᵀ *ᵥ (last.t - first.t) = d
  rw [hX]
  constructor
  · intro k
    have k0 := congrFun k 0
    have k2 := congrFun k 2
    simp [Matrix.mulVec, dotProduct, Fin.sum_univ_three] at k0 k2
    -- the rotation by twice the angle has no fixed vector in the plane
    have e0 : b * (b * d 0 + a * d 2) = 0 := by linear_combination (-1 / 2) * k0 + (1 / 2) * d 0 * hn
    have e2 : b * (a * d 0 - b * d 2) = 0 := by linear_combination (1 / 2) * k2 - (1 / 2) * d 2 * hn
    have f0 := (mul_eq_zero.1 e0).resolve_left hb.ne'
    have f2 := (mul_eq_zero.1 e2).resolve_left hb.ne'
    have g0 : d 0 = 0 := by
      have : (a * a + b * b) * d 0 = 0 := by linear_combination b * f0 + a * f2
      rwa [hn, one_mul] at this
    have g2 : d 2 = 0 := by
      have : (a * a + b * b) * d 2 = 0 := by linear_combination a * f0 - b * f2
      rwa [hn, one_mul] at this
    refine ⟨d 1, ?_⟩
    funext i
    fin_cases i
    · exact g0
    · rfl
    · exact g2
  · rintro ⟨y, rfl⟩
    funext i
    fin_cases i <;> simp [Matrix.mulVec, dotProduct, Fin.sum_univ_three]

/-- **C133 fails in the simulator.** Both parts of the motion are corrected there, and the skew transform is the motion of the lidar,
which is 30 cm ahead of and 6 cm below the origin of the body, only if the rotation during the sweep leaves the lidar where it is. -/
theorem C133_fails_simulator (tf tf' : TF (Iso ℝ)) : ∃ s, create tf simulator = .ok s ∧
    ("mdc/translation", Params.Value.bool true) ∈ Params.simulator.files ∧ ("mdc/rotation", Params.Value.bool true) ∈ Params.simulator.files ∧
    Mounted ⟨tf', s⟩ "lidar" ⟨1, ![0.3, 0, -0.06]⟩ ∧
    ∀ first last : NavState, Rigid (bodyPose first) →
      ∃ S, skewTransform ⟨tf', s⟩ true true first last = .ok S ∧
        (IsSensorMotion (bodyPose first) (bodyPose last) ⟨1, ![0.3, 0, -0.06]⟩ S ↔
          (first.Rᵀ * last.R) *ᵥ ![0.3, 0, -0.06] = ![0.3, 0, -0.06]) := by
  obtain ⟨s, h⟩ := robot_created (show (Params.simulator, simulator) ∈ robots by simp [robots]) tf
  have hm : Mounted ⟨tf', s⟩ "lidar" ⟨1, ![0.3, 0, -0.06]⟩ := by
    have := mounted_fixed h (plain_robots (Params.simulator, simulator) (by simp [robots])) (.below (.next (declares_fixed _ _))) tf'
    have e : nodeTransform (some (some 0.3, some 0, some (-0.06))) (some ⟨1, 0, 0, 0⟩) = ⟨1, ![0.3, 0, -0.06]⟩ := by
      ext1
      · rw [(C36_node_rigid _ _).2.1 ⟨1, 0, 0, 0⟩ rfl (by simp [Quat.Unit])]
        exact Quat.toMatrix_id
      · rfl
    rw [e] at this
    exact this
  refine ⟨s, h, by decide +kernel, by decide +kernel, hm, fun first last hf => ?_⟩
  obtain ⟨S, L, e, hL, -, -, hS⟩ := C133_fails_lever_arm hm first last hf
  have hL' := (sensorMotion_iff hf hm.rigid _ _).1 hL
  have hR : L.R = first.Rᵀ * last.R := by
    rw [hL', Iso.mul_R, Iso.mul_R, Iso.inv_R, Iso.mul_R, Iso.inv_R]
    show (1 : Matrix (Fin 3) (Fin 3) ℝ)ᵀ * (first.Rᵀ * last.R) * 1 = _
    rw [transpose_one, Matrix.one_mul, Matrix.mul_one]
  rw [hR] at hS
  refine ⟨S, e, ?_⟩
  rw [← hS, sensorMotion_iff hf hm.rigid, ← hL']

/-- C133 on the robot of ue4_missions: the lidar is in the origin of the body, turned by half a turn about x, and the skew transform is
the motion of the lidar, for every motion. -/
theorem C133_ue4_partial (tf tf' : TF (Iso ℝ)) : ∃ s, create tf ue4 = .ok s ∧
    ("mdc/translation", Params.Value.bool true) ∈ Params.ue4.files ∧ ("mdc/rotation", Params.Value.bool true) ∈ Params.ue4.files ∧
    Mounted ⟨tf', s⟩ "lidar" ⟨!![1, 0, 0; 0, -1, 0; 0, 0, -1], 0⟩ ∧
    ∀ first last : NavState, Rigid (bodyPose first) →
      ∃ S, skewTransform ⟨tf', s⟩ true true first last = .ok S ∧
        IsSensorMotion (bodyPose first) (bodyPose last) ⟨!![1, 0, 0; 0, -1, 0; 0, 0, -1], 0⟩ S := by
  obtain ⟨s, h⟩ := robot_created (show (Params.ue4, ue4) ∈ robots by simp [robots]) tf
  have hm : Mounted ⟨tf', s⟩ "lidar" ⟨!![1, 0, 0; 0, -1, 0; 0, 0, -1], 0⟩ := by
    have := mounted_fixed h (plain_robots (Params.ue4, ue4) (by simp [robots])) (.below (.next (declares_fixed _ _))) tf'
    have e : nodeTransform (some (some 0, some 0, some 0)) (some ⟨0, 1, 0, 0⟩) = ⟨!![1, 0, 0; 0, -1, 0; 0, 0, -1], 0⟩ := by
      ext1
      · rw [(C36_node_rigid _ _).2.1 ⟨0, 1, 0, 0⟩ rfl (by simp [Quat.Unit])]
        ext i j
        fin_cases i <;> fin_cases j <;> simp [Quat.toMatrix] <;> norm_num
      · funext i
        fin_cases i <;> rfl
    rw [e] at this
    exact this
  refine ⟨s, h, by decide +kernel, by decide +kernel, hm, fun first last hf => C133_skew_partial hm ?_ first last hf⟩
  ext i j
  · rw [Iso.mul_R, Iso.one_R]
    fin_cases i <;> fin_cases j <;> simp [Matrix.mul_apply, Fin.sum_univ_three]
  · rw [Iso.mul_t, Iso.one_t]
    fin_cases i <;> simp

/-- The snowboard slides ahead by one metre during the sweep: the points are moved wrongly. -/
example (tf tf' : TF (Iso ℝ)) : ∃ s X S, create tf snowboard = .ok s ∧ Mounted ⟨tf', s⟩ "lidar" X ∧
    skewTransform ⟨tf', s⟩ true true ⟨1, 0, 0⟩ ⟨1, ![1, 0, 0], 0⟩ = .ok S ∧
    ¬ IsSensorMotion (bodyPose ⟨1, 0, 0⟩) (bodyPose ⟨1, ![1, 0, 0], 0⟩) X S := by
  obtain ⟨s, h, -, -, k⟩ := C133_fails_snowboard tf tf'
  obtain ⟨X, S, hm, e, hS⟩ := k ⟨1, 0, 0⟩ ⟨1, ![1, 0, 0], 0⟩ Rigid.one rfl
  refine ⟨s, X, S, h, hm, e, fun bad => ?_⟩
  obtain ⟨y, hy⟩ := hS.1 bad
  have := congrFun hy 0
  simp at this

/-- The head of the simulator turns by 90 degrees to the left during the sweep: the points are moved wrongly. -/
example (tf tf' : TF (Iso ℝ)) : ∃ s S, create tf simulator = .ok s ∧
    skewTransform ⟨tf', s⟩ true true ⟨1, 0, 0⟩ ⟨Motion.turned.R, 0, 0⟩ = .ok S ∧
    ¬ IsSensorMotion (bodyPose ⟨1, 0, 0⟩) (bodyPose ⟨Motion.turned.R, 0, 0⟩) ⟨1, ![0.3, 0, -0.06]⟩ S := by
  obtain ⟨s, h, -, -, -, k⟩ := C133_fails_simulator tf tf'
  obtain ⟨S, e, hS⟩ := k ⟨1, 0, 0⟩ ⟨Motion.turned.R, 0, 0⟩ Rigid.one
  refine ⟨s, S, h, e, fun bad => ?_⟩
  have := congrFun (hS.1 bad) 0
  simp [Motion.turned, Matrix.mulVec, dotProduct, Fin.sum_univ_three] at this
  norm_num at this

/-! ### The initial state -/

/-- **C148.** The sensors of every robot: the lidar and the IMU are mounted rigidly, as the theorems about the motion and the initial
state assume, and the body has an id, whatever the transform listener says when the tree is built and later. -/
theorem C148_mounted (d : Params.DataSet) (c : Config (Iso ℝ)) (hr : (d, c) ∈ robots) (tf tf' : TF (Iso ℝ)) :
    ∃ s X Y, create tf c = .ok s ∧ Mounted ⟨tf', s⟩ "lidar" X ∧ Mounted ⟨tf', s⟩ "imu" Y ∧ bodyFrameId s = .ok c.id := by
  obtain ⟨s, h⟩ := robot_created hr tf
  have hp := plain_robots _ hr
  have hbody : bodyFrameId s = .ok c.id := by
    obtain ⟨es, he, hp⟩ := create_ok h
    unfold bodyFrameId
    rw [(putAll_stored es (bodySt_inv c) hp).body]
    exact (C37_index h (.body : c.Has tf _)).2.1
  simp only [robots, List.mem_cons, List.not_mem_nil, or_false, Prod.mk.injEq] at hr
  rcases hr with ⟨rfl, rfl⟩ | ⟨rfl, rfl⟩ | ⟨rfl, rfl⟩
  all_goals
    exact ⟨s, _, _, h, mounted_fixed h hp (.below (.next (declares_fixed _ _))) tf',
      mounted_fixed h hp (.below (declares_fixed _ _)) tf', hbody⟩

/-- C137 in the data sets: with the reference frame that the files configure, one of the two that the initial orientation is right for,
the first state of the back end has the orientation that the IMU, mounted as on the robot, reports, for every unit quaternion. Missing:
the angular velocity of the initial odometry (`C137_fails_angular`), which is not read. -/
theorem C137_robots_partial (d : Params.DataSet) (c : Config (Iso ℝ)) (hr : (d, c) ∈ robots) (tf tf' : TF (Iso ℝ)) :
    ∃ reference s X, ("imu/reference_frame", Params.Value.string reference) ∈ d.files ∧ (reference = "NED" ∨ reference = "NWU") ∧
      create tf c = .ok s ∧ Mounted ⟨tf', s⟩ "imu" X ∧
      ∀ (p : InitialParams) (imu : EigenRos.Imu) (t : Int), p.reference = some reference → Quat.Unit imu.orientation →
        ∃ m prior, initialOdometry ⟨tf', s⟩ p imu t = .ok m ∧ readInitial m = .ok prior ∧ m.childFrameId = c.id ∧ prior.stamp = t ∧
          prior.pose.R * X.R = (if reference = "NWU" then 1 else nedToNwu) * imu.orientation.toMatrix := by
  obtain ⟨s, -, X, h, -, hm, hid⟩ := C148_mounted d c hr tf tf'
  have key : ∃ reference, ("imu/reference_frame", Params.Value.string reference) ∈ d.files ∧ (reference = "NED" ∨ reference = "NWU") := by
    simp only [robots, List.mem_cons, List.not_mem_nil, or_false, Prod.mk.injEq] at hr
    rcases hr with ⟨rfl, rfl⟩ | ⟨rfl, rfl⟩ | ⟨rfl, rfl⟩
    · exact ⟨"NED", by decide +kernel, .inl rfl⟩
    · exact ⟨"NWU", by decide +kernel, .inr rfl⟩
    · exact ⟨"NWU", by decide +kernel, .inr rfl⟩
  obtain ⟨r, hmem, hrr⟩ := key
  refine ⟨r, s, X, hmem, hrr, h, hm, fun p imu t hp hq => ?_⟩
  obtain ⟨m, prior, e1, e2, -, -, e3, e4, e5, -⟩ := C137_initial_partial hm hid p hq t
    (by rcases hrr with rfl | rfl <;> simp [hp])
  refine ⟨m, prior, e1, e2, e3, e4, ?_⟩
  rw [e5, hp]
  simp only [Option.some.injEq]

end Robots

end Serpent
