import Verif.Model.EigenRos

/-!
# Model of the comparisons of the values of `eigen_ros` and of `eigen_ros::rpy`

pose.cpp, twist.cpp, odometry.cpp, imu.cpp, imu.hpp and stamped.hpp of eigen_ros. Floating point numbers are real numbers; `isApprox`
and `eulerAngles` follow Eigen 3.3.
-/

namespace Serpent

namespace EigenRos

open EigenExt Matrix Utils

/-! ### Comparison -/

/-- `NumTraits<double>::dummy_precision()`, the precision of `isApprox`. Used in pose.cpp:25-27. -/
noncomputable def precision : ℝ := 1 / 10 ^ 12

/-- `cwiseAbs2().sum()`. Used by `isApprox`, pose.cpp:25-27. -/
def squares {m n : Nat} (A : Matrix (Fin m) (Fin n) ℝ) : ℝ := ∑ i, ∑ j, A i j ^ 2

/-- `A.isApprox(B)`: the sum of the squares of the difference is at most `prec * prec` times the smaller sum. Used in pose.cpp:25-27,
twist.cpp:19-20 and imu.cpp:61-66. -/
def IsApprox {m n : Nat} (A B : Matrix (Fin m) (Fin n) ℝ) : Prop :=
  squares (A - B) ≤ precision * precision * min (squares A) (squares B)

/-- `Vector3d` as a matrix with one column. Used in pose.cpp:25. -/
def column {n : Nat} (v : Fin n → ℝ) : Matrix (Fin n) (Fin 1) ℝ := fun i _ => v i

/-- `operator==(Pose, Pose)`, pose.cpp:24-28. -/
def EqPose (l r : Pose) : Prop :=
  IsApprox (column l.position) (column r.position) ∧ IsApprox l.orientation.toMatrix r.orientation.toMatrix ∧
  IsApprox l.covariance r.covariance

/-- `operator==(Twist, Twist)`, twist.cpp:18-21. -/
def EqTwist (l r : Twist) : Prop :=
  IsApprox (column l.linear) (column r.linear) ∧ IsApprox (column l.angular) (column r.angular) ∧ IsApprox l.covariance r.covariance

/-- `operator==(Odometry, Odometry)`, odometry.cpp:26-29. -/
def EqOdometry (l r : Odometry) : Prop :=
  EqPose l.pose r.pose ∧ EqTwist l.twist r.twist ∧ l.timestamp = r.timestamp ∧ l.frame = r.frame ∧ l.childFrame = r.childFrame

/-- `operator==(Imu, Imu)`, imu.cpp:60-68. -/
def EqImu (l r : Imu) : Prop :=
  IsApprox l.orientation.toMatrix r.orientation.toMatrix ∧
  IsApprox (column l.angularVelocity) (column r.angularVelocity) ∧
  IsApprox (column l.linearAcceleration) (column r.linearAcceleration) ∧
  IsApprox l.orientationCov r.orientationCov ∧
  IsApprox l.angularVelocityCov r.angularVelocityCov ∧
  IsApprox l.linearAccelerationCov r.linearAccelerationCov ∧
  l.timestamp = r.timestamp ∧ l.frame = r.frame

/-- `operator==(Stamped<T>, Stamped<T>)`, stamped.hpp:28-31; `eq`: `operator==` of `T`. -/
def EqStamped {α : Type} (eq : α → α → Prop) (l r : Stamped α) : Prop := l.stamp = r.stamp ∧ eq l.data r.data

/-- `Odometry::pose_stamped`, odometry.cpp:13-15. -/
def Odometry.poseStamped (o : Odometry) : Stamped Pose := ⟨o.timestamp, o.pose⟩

/-- `Odometry::twist_stamped`, odometry.cpp:17-19. -/
def Odometry.twistStamped (o : Odometry) : Stamped Twist := ⟨o.timestamp, o.twist⟩

/-! ### Angles -/

open Classical in
/-- `matrix.eulerAngles(0, 1, 2)` of Eigen 3.3 (`odd` is false, `i = 0`, `j = 1`, `k = 2`). Called in imu.hpp:61-63. -/
noncomputable def eulerAngles (m : Matrix (Fin 3) (Fin 3) ℝ) : Fin 3 → ℝ :=
  let first := Quat.atan2 (m 1 2) (m 2 2)
  let c2 := Real.sqrt (m 0 0 ^ 2 + m 0 1 ^ 2)
  let res0 := if first > 0 then first - Real.pi else first
  let res1 := if first > 0 then Quat.atan2 (-m 0 2) (-c2) else Quat.atan2 (-m 0 2) c2
  let s1 := Real.sin res0
  let c1 := Real.cos res0
  let res2 := Quat.atan2 (s1 * m 2 0 - c1 * m 1 0) (c1 * m 1 1 - s1 * m 2 1)
  ![-res0, -res1, -res2]

/-- `rpy`, imu.hpp:61-63. -/
noncomputable def rpy (q : Quat) : Fin 3 → ℝ := eulerAngles q.toMatrix

/-- `Imu::rpy`, imu.hpp:65-67. -/
noncomputable def Imu.rpy (imu : Imu) : Fin 3 → ℝ := EigenRos.rpy imu.orientation

/-- The angles in degrees, imu.cpp:51-52 and imu_analysis.cpp:72-73. -/
noncomputable def degrees (angles : Fin 3 → ℝ) : Fin 3 → ℝ := fun i => 180 * angles i / Real.pi

end EigenRos

end Serpent
