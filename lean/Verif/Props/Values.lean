import Verif.Model.Values
import Verif.Lemmas.Quaternion
import Verif.Spec.Geometry
import Mathlib.Tactic.Linarith
import Mathlib.Tactic.LinearCombination
import Mathlib.Tactic.NormNum

/-!
# C146 and C147: comparison of values; roll, pitch and yaw
-/

namespace Serpent

namespace EigenRos

open EigenExt Matrix Utils

/-! ## C146 -/

theorem squares_nonneg {m n : Nat} (A : Matrix (Fin m) (Fin n) ℝ) : 0 ≤ squares A :=
  Finset.sum_nonneg fun _ _ => Finset.sum_nonneg fun _ _ => sq_nonneg _

theorem squares_zero {m n : Nat} : squares (0 : Matrix (Fin m) (Fin n) ℝ) = 0 := by simp [squares]

theorem squares_eq_zero {m n : Nat} {A : Matrix (Fin m) (Fin n) ℝ} (h : squares A = 0) : A = 0 := by
  ext i j
  have h1 := (Finset.sum_eq_zero_iff_of_nonneg fun i _ => Finset.sum_nonneg fun j _ => sq_nonneg (A i j)).1 h i (Finset.mem_univ _)
  have h2 := (Finset.sum_eq_zero_iff_of_nonneg fun j _ => sq_nonneg (A i j)).1 h1 j (Finset.mem_univ _)
  simpa using h2

theorem precision_pos : 0 < precision := by unfold precision; norm_num

theorem IsApprox.refl {m n : Nat} (A : Matrix (Fin m) (Fin n) ℝ) : IsApprox A A := by
  unfold IsApprox
  rw [sub_self, squares_zero, min_self]
  exact mul_nonneg (mul_nonneg precision_pos.le precision_pos.le) (squares_nonneg A)

theorem IsApprox.symm {m n : Nat} {A B : Matrix (Fin m) (Fin n) ℝ} (h : IsApprox A B) : IsApprox B A := by
  unfold IsApprox at *
  have : squares (B - A) = squares (A - B) :=
    Finset.sum_congr rfl fun i _ => Finset.sum_congr rfl fun j _ => by simp only [Matrix.sub_apply]; ring
  rw [this, min_comm]
  exact h

theorem IsApprox.zero {m n : Nat} {A : Matrix (Fin m) (Fin n) ℝ} : IsApprox A 0 ↔ A = 0 := by
  constructor
  · intro h
    unfold IsApprox at h
    rw [sub_zero, squares_zero, min_eq_right (squares_nonneg A), mul_zero] at h
    exact squares_eq_zero (le_antisymm h (squares_nonneg A))
  · rintro rfl
    exact IsApprox.refl 0

/-- C146. Every value equals itself and the order of the two does not matter, for poses, twists, odometry, IMU measurements and stamped
values. -/
theorem C146_reflexive_symmetric :
    (∀ p : Pose, EqPose p p) ∧ (∀ t : Twist, EqTwist t t) ∧ (∀ o : Odometry, EqOdometry o o) ∧ (∀ i : Imu, EqImu i i) ∧
    (∀ p q : Pose, EqPose p q → EqPose q p) ∧ (∀ t u : Twist, EqTwist t u → EqTwist u t) ∧
    (∀ o p : Odometry, EqOdometry o p → EqOdometry p o) ∧ (∀ i j : Imu, EqImu i j → EqImu j i) ∧
    ∀ {α : Type} (eq : α → α → Prop), (∀ a, eq a a) → (∀ a b, eq a b → eq b a) →
      (∀ s, EqStamped eq s s) ∧ ∀ s t, EqStamped eq s t → EqStamped eq t s := by
  have hp : ∀ p : Pose, EqPose p p := fun p => ⟨.refl _, .refl _, .refl _⟩
  have ht : ∀ t : Twist, EqTwist t t := fun p => ⟨.refl _, .refl _, .refl _⟩
  have hp' : ∀ p q : Pose, EqPose p q → EqPose q p := fun p q h => ⟨h.1.symm, h.2.1.symm, h.2.2.symm⟩
  have ht' : ∀ t u : Twist, EqTwist t u → EqTwist u t := fun p q h => ⟨h.1.symm, h.2.1.symm, h.2.2.symm⟩
  refine ⟨hp, ht, fun o => ⟨hp _, ht _, rfl, rfl, rfl⟩, fun i => ⟨.refl _, .refl _, .refl _, .refl _, .refl _, .refl _, rfl, rfl⟩,
    hp', ht', fun o p h => ⟨hp' _ _ h.1, ht' _ _ h.2.1, h.2.2.1.symm, h.2.2.2.1.symm, h.2.2.2.2.symm⟩, ?_, ?_⟩
  · rintro i j ⟨h1, h2, h3, h4, h5, h6, h7, h8⟩
    exact ⟨h1.symm, h2.symm, h3.symm, h4.symm, h5.symm, h6.symm, h7.symm, h8.symm⟩
  · intro α eq hr hs
    exact ⟨fun s => ⟨rfl, hr _⟩, fun s t h => ⟨h.1.symm, hs _ _ h.2⟩⟩

/-- C146. A quaternion and its negative are the same orientation: exchanging them in a pose or a measurement does not matter. -/
theorem C146_sign (p q : Pose) (i j : Imu) :
    (EqPose { p with orientation := ⟨-p.orientation.w, -p.orientation.x, -p.orientation.y, -p.orientation.z⟩ } q ↔ EqPose p q) ∧
    (EqImu { i with orientation := ⟨-i.orientation.w, -i.orientation.x, -i.orientation.y, -i.orientation.z⟩ } j ↔ EqImu i j) := by
  have h : ∀ q : Quat, (⟨-q.w, -q.x, -q.y, -q.z⟩ : Quat).toMatrix = q.toMatrix := by
    intro q
    unfold Quat.toMatrix
    simp only [mul_neg, neg_mul, neg_neg]
  constructor
  · unfold EqPose
    rw [h]
  · unfold EqImu
    rw [h]

/-- C146. Equal poses: position, rotation matrix and covariance each differ by at most a millionth of a millionth of the smaller norm;
and poses with exactly the same values are equal. -/
theorem C146_bound (p q : Pose) : EqPose p q ↔
    (∑ i, (p.position i - q.position i) ^ 2 ≤ (1 / 10 ^ 12) ^ 2 * min (∑ i, p.position i ^ 2) (∑ i, q.position i ^ 2)) ∧
    (∑ i, ∑ j, (p.orientation.toMatrix i j - q.orientation.toMatrix i j) ^ 2 ≤
      (1 / 10 ^ 12) ^ 2 * min (∑ i, ∑ j, p.orientation.toMatrix i j ^ 2) (∑ i, ∑ j, q.orientation.toMatrix i j ^ 2)) ∧
    (∑ i, ∑ j, (p.covariance i j - q.covariance i j) ^ 2 ≤
      (1 / 10 ^ 12) ^ 2 * min (∑ i, ∑ j, p.covariance i j ^ 2) (∑ i, ∑ j, q.covariance i j ^ 2)) := by
  have e : ∀ a b : Fin 3 → ℝ, squares (column a - column b) = ∑ i, (a i - b i) ^ 2 := by
    intro a b
    unfold squares
    simp only [Matrix.sub_apply, Fin.sum_univ_one, column]
  unfold EqPose IsApprox
  rw [e]
  unfold squares column precision
  simp only [Matrix.sub_apply, Fin.sum_univ_one, sq (1 / 10 ^ 12 : ℝ)]

/-- C146. A component that is zero equals nothing but zero: a pose without covariance, a measurement without covariances, a resting
twist and the origin equal only values for which these are exactly zero. -/
theorem C146_zero :
    (∀ p q : Pose, EqPose p q → (p.position = 0 ↔ q.position = 0) ∧ (p.covariance = 0 ↔ q.covariance = 0)) ∧
    (∀ t u : Twist, EqTwist t u → (t.linear = 0 ↔ u.linear = 0) ∧ (t.angular = 0 ↔ u.angular = 0) ∧
      (t.covariance = 0 ↔ u.covariance = 0)) ∧
    (∀ i j : Imu, EqImu i j → (i.angularVelocity = 0 ↔ j.angularVelocity = 0) ∧
      (i.linearAcceleration = 0 ↔ j.linearAcceleration = 0) ∧ (i.orientationCov = 0 ↔ j.orientationCov = 0) ∧
      (i.angularVelocityCov = 0 ↔ j.angularVelocityCov = 0) ∧ (i.linearAccelerationCov = 0 ↔ j.linearAccelerationCov = 0)) := by
  have hm : ∀ {m n : Nat} {A B : Matrix (Fin m) (Fin n) ℝ}, IsApprox A B → (A = 0 ↔ B = 0) := by
    intro m n A B h
    constructor
    · rintro rfl
      exact IsApprox.zero.1 h.symm
    · rintro rfl
      exact IsApprox.zero.1 h
  have hv : ∀ {n : Nat} {a b : Fin n → ℝ}, IsApprox (column a) (column b) → (a = 0 ↔ b = 0) := by
    intro n a b h
    have e : ∀ c : Fin n → ℝ, column c = 0 ↔ c = 0 := fun c =>
      ⟨fun h => funext fun i => congrFun (congrFun h i) 0, fun h => by subst h; rfl⟩
    rw [← e a, ← e b]
    exact hm h
  exact ⟨fun p q h => ⟨hv h.1, hm h.2.2⟩, fun t u h => ⟨hv h.1, hv h.2.1, hm h.2.2⟩,
    fun i j h => ⟨hv h.2.1, hv h.2.2.1, hm h.2.2.2.1, hm h.2.2.2.2.1, hm h.2.2.2.2.2.1⟩⟩

/-- C146. Stamps and frames are compared exactly; the accessors of odometry carry its stamp. -/
theorem C146_exact (o p : Odometry) (i j : Imu) :
    (EqOdometry o p → o.timestamp = p.timestamp ∧ o.frame = p.frame ∧ o.childFrame = p.childFrame) ∧
    (EqImu i j → i.timestamp = j.timestamp ∧ i.frame = j.frame) ∧
    (EqOdometry o p ↔ EqStamped EqPose o.poseStamped p.poseStamped ∧ EqStamped EqTwist o.twistStamped p.twistStamped ∧
      o.frame = p.frame ∧ o.childFrame = p.childFrame) := by
  refine ⟨fun h => h.2.2, fun h => h.2.2.2.2.2.2, ?_⟩
  constructor
  · rintro ⟨h1, h2, h3, h4, h5⟩
    exact ⟨⟨h3, h1⟩, ⟨h3, h2⟩, h4, h5⟩
  · rintro ⟨⟨h3, h1⟩, ⟨-, h2⟩, h4, h5⟩
    exact ⟨h1, h2, h3, h4, h5⟩

/-- A pose on the x axis. -/
noncomputable def onAxis (x : ℝ) : Pose := ⟨![x, 0, 0], Quat.id, 0⟩

theorem onAxis_eq (x y : ℝ) : EqPose (onAxis x) (onAxis y) ↔ (x - y) ^ 2 ≤ (1 / 10 ^ 12) ^ 2 * min (x ^ 2) (y ^ 2) := by
  rw [C146_bound]
  have h : ∀ z : ℝ, ∑ i, (onAxis z).position i ^ 2 = z ^ 2 := by
    intro z
    rw [Fin.sum_univ_three]
    simp [onAxis]
  have h' : ∑ i, ((onAxis x).position i - (onAxis y).position i) ^ 2 = (x - y) ^ 2 := by
    rw [Fin.sum_univ_three]
    simp [onAxis]
  rw [h, h, h']
  constructor
  · exact fun h => h.1
  · intro h
    refine ⟨h, ?_, ?_⟩
    · have : (onAxis x).orientation = (onAxis y).orientation := rfl
      rw [this]
      simp only [sub_self, min_self]
      simp only [ne_eq, OfNat.ofNat_ne_zero, not_false_eq_true, zero_pow, Finset.sum_const_zero]
      exact mul_nonneg (by norm_num) (Finset.sum_nonneg fun _ _ => Finset.sum_nonneg fun _ _ => sq_nonneg _)
    · simp [onAxis]

/-- C146 fails for transitivity: a chain of equal poses can lead to one that is not equal to the first. -/
theorem C146_fails_transitive : ∃ p q r : Pose, EqPose p q ∧ EqPose q r ∧ ¬ EqPose p r := by
  refine ⟨onAxis 1, onAxis (1 + 1 / 10 ^ 12), onAxis (1 + 2 / 10 ^ 12), ?_, ?_, ?_⟩
  · rw [onAxis_eq, min_eq_left (by norm_num)]; norm_num
  · rw [onAxis_eq, min_eq_left (by norm_num)]; norm_num
  · rw [onAxis_eq, min_eq_left (by norm_num)]; norm_num

/-- C146 fails for a change of origin: whether two positions are equal depends on how far they are from the origin. -/
theorem C146_fails_origin : ∃ x y d : ℝ, ¬ EqPose (onAxis x) (onAxis y) ∧ EqPose (onAxis (x + d)) (onAxis (y + d)) := by
  refine ⟨0, 1 / 10 ^ 12, 1, ?_, ?_⟩
  · rw [onAxis_eq, min_eq_left (by norm_num)]; norm_num
  · rw [onAxis_eq, min_eq_left (by norm_num)]; norm_num

/-- Two poses that are equal although they differ. -/
example : EqPose (onAxis 10) (onAxis (10 + 1 / 10 ^ 12)) ∧ onAxis 10 ≠ onAxis (10 + 1 / 10 ^ 12) := by
  constructor
  · rw [onAxis_eq, min_eq_left (by norm_num)]; norm_num
  · intro h
    have := congrArg (fun p => p.position 0) h
    simp [onAxis] at this

/-! ## C147 -/

theorem norm_mk (x y : ℝ) : ‖(⟨x, y⟩ : ℂ)‖ = Real.sqrt (x ^ 2 + y ^ 2) := by
  rw [Complex.norm_def, Complex.normSq_apply]
  congr 1
  ring

theorem atan2_polar (y x : ℝ) : Real.sqrt (x ^ 2 + y ^ 2) * Real.cos (Quat.atan2 y x) = x ∧
    Real.sqrt (x ^ 2 + y ^ 2) * Real.sin (Quat.atan2 y x) = y := by
  rw [← norm_mk]
  exact ⟨Complex.norm_mul_cos_arg _, Complex.norm_mul_sin_arg _⟩

theorem atan2_unit {y x : ℝ} (h : x ^ 2 + y ^ 2 = 1) : Real.cos (Quat.atan2 y x) = x ∧ Real.sin (Quat.atan2 y x) = y := by
  have := atan2_polar y x
  rw [h, Real.sqrt_one, one_mul, one_mul] at this
  exact this

theorem atan2_of_polar {r a : ℝ} (hr : 0 < r) (h1 : -Real.pi < a) (h2 : a ≤ Real.pi) :
    Quat.atan2 (r * Real.sin a) (r * Real.cos a) = a := by
  have := Complex.arg_mul_cos_add_sin_mul_I hr (θ := a) ⟨h1, h2⟩
  unfold Quat.atan2
  refine (congrArg Complex.arg ?_).trans this
  apply Complex.ext
  · simp [← Complex.ofReal_cos, ← Complex.ofReal_sin]
  · simp [← Complex.ofReal_cos, ← Complex.ofReal_sin]

/-- The rotations about the axes of coordinates, written out. -/
theorem rodrigues_x (a : ℝ) : rodrigues a ![1, 0, 0] =
    !![1, 0, 0; 0, Real.cos a, -Real.sin a; 0, Real.sin a, Real.cos a] := by
  unfold rodrigues skewOf
  ext i j
  fin_cases i <;> fin_cases j <;> simp

theorem rodrigues_y (a : ℝ) : rodrigues a ![0, 1, 0] =
    !![Real.cos a, 0, Real.sin a; 0, 1, 0; -Real.sin a, 0, Real.cos a] := by
  unfold rodrigues skewOf
  ext i j
  fin_cases i <;> fin_cases j <;> simp

theorem rodrigues_z (a : ℝ) : rodrigues a ![0, 0, 1] =
    !![Real.cos a, -Real.sin a, 0; Real.sin a, Real.cos a, 0; 0, 0, 1] := by
  unfold rodrigues skewOf
  ext i j
  fin_cases i <;> fin_cases j <;> simp

/-- The product of the three rotations. -/
theorem product_xyz (a b c : ℝ) : rodrigues a ![1, 0, 0] * rodrigues b ![0, 1, 0] * rodrigues c ![0, 0, 1] =
    !![Real.cos b * Real.cos c, -(Real.cos b * Real.sin c), Real.sin b;
       Real.cos a * Real.sin c + Real.sin a * Real.sin b * Real.cos c,
       Real.cos a * Real.cos c - Real.sin a * Real.sin b * Real.sin c, -(Real.sin a * Real.cos b);
       Real.sin a * Real.sin c - Real.cos a * Real.sin b * Real.cos c,
       Real.sin a * Real.cos c + Real.cos a * Real.sin b * Real.sin c, Real.cos a * Real.cos b] := by
  rw [rodrigues_x, rodrigues_y, rodrigues_z]
  ext i j
  fin_cases i <;> fin_cases j <;> simp [Matrix.mul_apply, Fin.sum_univ_three] <;> ring

open Classical in
/-- What the three results of Eigen are: the sign `e` says which of the two solutions is taken. -/
theorem eulerAngles_form {m : Matrix (Fin 3) (Fin 3) ℝ} (hr : Quat.Rotation m) :
    ∃ e : ℝ, (e = 1 ∨ e = -1) ∧
      m 2 2 = e * Real.sqrt (m 0 0 ^ 2 + m 0 1 ^ 2) * Real.cos (eulerAngles m 0) ∧
      m 1 2 = -(e * Real.sqrt (m 0 0 ^ 2 + m 0 1 ^ 2) * Real.sin (eulerAngles m 0)) ∧
      Real.cos (eulerAngles m 1) = e * Real.sqrt (m 0 0 ^ 2 + m 0 1 ^ 2) ∧
      Real.sin (eulerAngles m 1) = m 0 2 ∧
      eulerAngles m 2 = -Quat.atan2 (-(Real.sin (eulerAngles m 0) * m 2 0) - Real.cos (eulerAngles m 0) * m 1 0)
        (Real.cos (eulerAngles m 0) * m 1 1 + Real.sin (eulerAngles m 0) * m 2 1) ∧
      0 ≤ eulerAngles m 0 ∧ eulerAngles m 0 < Real.pi ∧ -Real.pi ≤ eulerAngles m 1 ∧ eulerAngles m 1 < Real.pi := by
  have hc := hr.coeffs
  have h2 : m 0 0 ^ 2 + m 0 1 ^ 2 = m 2 2 ^ 2 + m 1 2 ^ 2 := by
    have a := hc.row 0 0
    have b := hc.col 2 2
    simp only [if_true] at a b
    linarith
  have h3 : m 0 0 ^ 2 + m 0 1 ^ 2 + m 0 2 ^ 2 = 1 := by
    have a := hc.row 0 0
    simp only [if_true] at a
    linarith
  set c2 := Real.sqrt (m 0 0 ^ 2 + m 0 1 ^ 2) with hc2
  have hsq : c2 ^ 2 = m 0 0 ^ 2 + m 0 1 ^ 2 := Real.sq_sqrt (by positivity)
  obtain ⟨p1, p2⟩ := atan2_polar (m 1 2) (m 2 2)
  rw [← h2, ← hc2] at p1 p2
  have hrange : ∀ y x, -Real.pi < Quat.atan2 y x ∧ Quat.atan2 y x ≤ Real.pi := fun y x => Complex.arg_mem_Ioc _
  obtain ⟨r1, r2⟩ := hrange (m 1 2) (m 2 2)
  have hcos : ∀ x : ℝ, Real.cos (x - Real.pi) = -Real.cos x := Real.cos_sub_pi
  have hsin : ∀ x : ℝ, Real.sin (x - Real.pi) = -Real.sin x := Real.sin_sub_pi
  by_cases hf : Quat.atan2 (m 1 2) (m 2 2) > 0
  · have e0 : eulerAngles m 0 = -(Quat.atan2 (m 1 2) (m 2 2) - Real.pi) := by
      unfold eulerAngles
      rw [if_pos hf, if_pos hf]
      rfl
    have e1 : eulerAngles m 1 = -Quat.atan2 (-m 0 2) (-c2) := by
      unfold eulerAngles
      rw [if_pos hf, if_pos hf]
      rfl
    have e2 : eulerAngles m 2 = -Quat.atan2 (Real.sin (-eulerAngles m 0) * m 2 0 - Real.cos (-eulerAngles m 0) * m 1 0)
        (Real.cos (-eulerAngles m 0) * m 1 1 - Real.sin (-eulerAngles m 0) * m 2 1) := by
      have : -eulerAngles m 0 = if Quat.atan2 (m 1 2) (m 2 2) > 0 then Quat.atan2 (m 1 2) (m 2 2) - Real.pi
          else Quat.atan2 (m 1 2) (m 2 2) := neg_neg _
      rw [this]
      rfl
    obtain ⟨u1, u2⟩ := atan2_unit (x := -c2) (y := -m 0 2) (by rw [neg_sq, neg_sq, hsq]; exact h3)
    obtain ⟨r3, r4⟩ := hrange (-m 0 2) (-c2)
    refine ⟨-1, .inr rfl, ?_, ?_, ?_, ?_, ?_, ?_, ?_, ?_, ?_⟩
    · rw [e0, Real.cos_neg, hcos]; linarith
    · rw [e0, Real.sin_neg, hsin]; linarith
    · rw [e1, Real.cos_neg, u1]; ring
    · rw [e1, Real.sin_neg, u2]; ring
    · rw [e2, Real.sin_neg, Real.cos_neg]
      congr 2 <;> ring
    · rw [e0]; linarith
    · rw [e0]; linarith
    · rw [e1]; linarith
    · rw [e1]; linarith
  · have e0 : eulerAngles m 0 = -Quat.atan2 (m 1 2) (m 2 2) := by
      unfold eulerAngles
      rw [if_neg hf, if_neg hf]
      rfl
    have e1 : eulerAngles m 1 = -Quat.atan2 (-m 0 2) c2 := by
      unfold eulerAngles
      rw [if_neg hf, if_neg hf]
      rfl
    have e2 : eulerAngles m 2 = -Quat.atan2 (Real.sin (-eulerAngles m 0) * m 2 0 - Real.cos (-eulerAngles m 0) * m 1 0)
        (Real.cos (-eulerAngles m 0) * m 1 1 - Real.sin (-eulerAngles m 0) * m 2 1) := by
      have : -eulerAngles m 0 = if Quat.atan2 (m 1 2) (m 2 2) > 0 then Quat.atan2 (m 1 2) (m 2 2) - Real.pi
          else Quat.atan2 (m 1 2) (m 2 2) := neg_neg _
      rw [this]
      rfl
    obtain ⟨u1, u2⟩ := atan2_unit (x := c2) (y := -m 0 2) (by rw [neg_sq, hsq]; exact h3)
    obtain ⟨r3, r4⟩ := hrange (-m 0 2) c2
    refine ⟨1, .inl rfl, ?_, ?_, ?_, ?_, ?_, ?_, ?_, ?_, ?_⟩
    · rw [e0, Real.cos_neg]; linarith
    · rw [e0, Real.sin_neg]; linarith
    · rw [e1, Real.cos_neg, u1]; ring
    · rw [e1, Real.sin_neg, u2]; ring
    · rw [e2, Real.sin_neg, Real.cos_neg]
      congr 2 <;> ring
    · rw [e0]; linarith
    · rw [e0]; linarith
    · rw [e1]; linarith
    · rw [e1]; linarith

theorem eulerAngles_recompose {m : Matrix (Fin 3) (Fin 3) ℝ} (hr : Quat.Rotation m) :
    rodrigues (eulerAngles m 0) ![1, 0, 0] * rodrigues (eulerAngles m 1) ![0, 1, 0] * rodrigues (eulerAngles m 2) ![0, 0, 1] = m ∧
    -Real.pi ≤ eulerAngles m 2 ∧ eulerAngles m 2 < Real.pi := by
  have hc := hr.coeffs
  obtain ⟨e, -, h22, h12, hcb, hsb, he2, -⟩ := eulerAngles_form hr
  rw [← hcb] at h22 h12
  rw [product_xyz]
  have hrange : ∀ y x, -Real.pi < Quat.atan2 y x ∧ Quat.atan2 y x ≤ Real.pi := fun y x => Complex.arg_mem_Ioc _
  generalize eulerAngles m 0 = a at *
  generalize eulerAngles m 1 = b at *
  have ta := Real.sin_sq_add_cos_sq a
  have tb := Real.sin_sq_add_cos_sq b
  have r11 := hc.row 1 1
  have r22 := hc.row 2 2
  have r12 := hc.row 1 2
  have r01 := hc.row 0 1
  have r02 := hc.row 0 2
  simp only [if_true] at r11 r22
  rw [if_neg (by decide)] at r12 r01 r02
  obtain ⟨u1, u2⟩ := atan2_unit (x := Real.cos a * m 1 1 + Real.sin a * m 2 1)
    (y := -(Real.sin a * m 2 0) - Real.cos a * m 1 0) (by
      have hz : Real.cos a * m 1 2 + Real.sin a * m 2 2 = 0 := by rw [h22, h12]; ring
      linear_combination (Real.cos a) ^ 2 * r11 + (Real.sin a) ^ 2 * r22 + 2 * Real.sin a * Real.cos a * r12 + ta -
        (Real.cos a * m 1 2 + Real.sin a * m 2 2) * hz)
  obtain ⟨r3, r4⟩ := hrange (-(Real.sin a * m 2 0) - Real.cos a * m 1 0) (Real.cos a * m 1 1 + Real.sin a * m 2 1)
  have hcc : Real.cos (eulerAngles m 2) = Real.cos a * m 1 1 + Real.sin a * m 2 1 := by rw [he2, Real.cos_neg, u1]
  have hsc : Real.sin (eulerAngles m 2) = Real.sin a * m 2 0 + Real.cos a * m 1 0 := by rw [he2, Real.sin_neg, u2]; ring
  refine ⟨?_, by rw [he2]; linarith, by rw [he2]; linarith⟩
  generalize eulerAngles m 2 = c at *
  have c00 := hc.c00; have c01 := hc.c01; have c10 := hc.c10; have c11 := hc.c11
  have c20 := hc.c20; have c21 := hc.c21
  have hb : Real.cos a * m 2 2 - Real.sin a * m 1 2 = Real.cos b := by
    rw [h22, h12]; linear_combination Real.cos b * ta
  ext i j
  fin_cases i <;> fin_cases j
  · show Real.cos b * Real.cos c = m 0 0
    rw [hcc, ← c00, h22, h12]
    ring
  · show -(Real.cos b * Real.sin c) = m 0 1
    rw [hsc, ← c01, h22, h12]
    ring
  · show Real.sin b = m 0 2
    exact hsb
  · show Real.cos a * Real.sin c + Real.sin a * Real.sin b * Real.cos c = m 1 0
    rw [hcc, hsc, hsb]
    have k1 : m 0 2 * (Real.cos a * m 1 1 + Real.sin a * m 2 1) = Real.sin a * m 1 0 - Real.cos a * m 2 0 := by
      rw [h22] at c10
      rw [h12] at c20
      linear_combination Real.sin a * c10 - Real.cos a * c20
    linear_combination Real.sin a * k1 + m 1 0 * ta
  · show Real.cos a * Real.cos c - Real.sin a * Real.sin b * Real.sin c = m 1 1
    rw [hcc, hsc, hsb]
    have k1 : m 0 2 * (Real.cos a * m 1 0 + Real.sin a * m 2 0) = Real.cos a * m 2 1 - Real.sin a * m 1 1 := by
      rw [h22] at c11
      rw [h12] at c21
      linear_combination Real.cos a * c21 - Real.sin a * c11
    linear_combination -Real.sin a * k1 + m 1 1 * ta
  · show -(Real.sin a * Real.cos b) = m 1 2
    rw [h12]; ring
  · show Real.sin a * Real.sin c - Real.cos a * Real.sin b * Real.cos c = m 2 0
    rw [hcc, hsc, hsb]
    have k1 : m 0 2 * (Real.cos a * m 1 1 + Real.sin a * m 2 1) = Real.sin a * m 1 0 - Real.cos a * m 2 0 := by
      rw [h22] at c10
      rw [h12] at c20
      linear_combination Real.sin a * c10 - Real.cos a * c20
    linear_combination -Real.cos a * k1 + m 2 0 * ta
  · show Real.sin a * Real.cos c + Real.cos a * Real.sin b * Real.sin c = m 2 1
    rw [hcc, hsc, hsb]
    have k1 : m 0 2 * (Real.cos a * m 1 0 + Real.sin a * m 2 0) = Real.cos a * m 2 1 - Real.sin a * m 1 1 := by
      rw [h22] at c11
      rw [h12] at c21
      linear_combination Real.cos a * c21 - Real.sin a * c11
    linear_combination Real.cos a * k1 + m 2 1 * ta
  · show Real.cos a * Real.cos b = m 2 2
    rw [h22]; ring

/-- C147. For every unit quaternion the three angles are angles of successive turns about the x, the new y and the new z axis that
together make its rotation; the first lies in [0, π), the others in [-π, π). -/
theorem C147_recompose {q : Quat} (h : Quat.Unit q) :
    rodrigues (rpy q 0) ![1, 0, 0] * rodrigues (rpy q 1) ![0, 1, 0] * rodrigues (rpy q 2) ![0, 0, 1] = q.toMatrix ∧
    (0 ≤ rpy q 0 ∧ rpy q 0 < Real.pi) ∧ (-Real.pi ≤ rpy q 1 ∧ rpy q 1 < Real.pi) ∧ (-Real.pi ≤ rpy q 2 ∧ rpy q 2 < Real.pi) := by
  obtain ⟨e, -, -, -, -, -, -, a, b, c, d⟩ := eulerAngles_form h.rotation
  obtain ⟨f, g⟩ := eulerAngles_recompose h.rotation
  exact ⟨f, ⟨a, b⟩, ⟨c, d⟩, g⟩

/-- C147. Conversely, any three such angles of an orientation that does not point straight up or down are the ones found. -/
theorem C147_unique {q : Quat} {a b c : ℝ} (ha : 0 ≤ a) (ha' : a < Real.pi) (hb : -Real.pi ≤ b) (hb' : b < Real.pi)
    (hc : -Real.pi ≤ c) (hc' : c < Real.pi) (hne : Real.cos b ≠ 0)
    (h : q.toMatrix = rodrigues a ![1, 0, 0] * rodrigues b ![0, 1, 0] * rodrigues c ![0, 0, 1]) : rpy q = ![a, b, c] := by
  rw [product_xyz] at h
  unfold rpy
  rw [h]
  generalize hm : (!![_, _, _; _, _, _; _, _, _] : Matrix (Fin 3) (Fin 3) ℝ) = m
  have m00 : m 0 0 = Real.cos b * Real.cos c := by rw [← hm]; rfl
  have m01 : m 0 1 = -(Real.cos b * Real.sin c) := by rw [← hm]; rfl
  have m02 : m 0 2 = Real.sin b := by rw [← hm]; rfl
  have m10 : m 1 0 = Real.cos a * Real.sin c + Real.sin a * Real.sin b * Real.cos c := by rw [← hm]; rfl
  have m11 : m 1 1 = Real.cos a * Real.cos c - Real.sin a * Real.sin b * Real.sin c := by rw [← hm]; rfl
  have m12 : m 1 2 = -(Real.sin a * Real.cos b) := by rw [← hm]; rfl
  have m20 : m 2 0 = Real.sin a * Real.sin c - Real.cos a * Real.sin b * Real.cos c := by rw [← hm]; rfl
  have m21 : m 2 1 = Real.sin a * Real.cos c + Real.cos a * Real.sin b * Real.sin c := by rw [← hm]; rfl
  have m22 : m 2 2 = Real.cos a * Real.cos b := by rw [← hm]; rfl
  have ta := Real.sin_sq_add_cos_sq a
  have tc := Real.sin_sq_add_cos_sq c
  have hs : Real.sqrt (m 0 0 ^ 2 + m 0 1 ^ 2) = |Real.cos b| := by
    rw [← Real.sqrt_sq_eq_abs, m00, m01]
    congr 1
    linear_combination Real.cos b ^ 2 * tc
  have key : ∀ res0 res1 : ℝ, res0 = -a → res1 = -b →
      ![-res0, -res1, -Quat.atan2 (Real.sin res0 * m 2 0 - Real.cos res0 * m 1 0) (Real.cos res0 * m 1 1 - Real.sin res0 * m 2 1)] =
        ![a, b, c] := by
    rintro _ _ rfl rfl
    have hz : Quat.atan2 (Real.sin (-a) * m 2 0 - Real.cos (-a) * m 1 0) (Real.cos (-a) * m 1 1 - Real.sin (-a) * m 2 1) = -c := by
      have := atan2_of_polar (r := 1) (a := -c) one_pos (by linarith) (by linarith)
      rw [Real.sin_neg, Real.cos_neg] at this
      rw [← this, Real.sin_neg, Real.cos_neg, m20, m10, m11, m21]
      congr 1
      · linear_combination -Real.sin c * ta
      · linear_combination Real.cos c * ta
    rw [hz]
    simp
  have hpi := Real.pi_pos
  rcases lt_or_gt_of_ne hne with hlt | hgt
  · have hfirst : Quat.atan2 (m 1 2) (m 2 2) = Real.pi - a := by
      have := atan2_of_polar (r := -Real.cos b) (a := Real.pi - a) (by linarith) (by linarith) (by linarith)
      rw [Real.sin_pi_sub, Real.cos_pi_sub] at this
      rw [← this, m12, m22]
      congr 1 <;> ring
    have hpos : Quat.atan2 (m 1 2) (m 2 2) > 0 := by rw [hfirst]; linarith
    have hsec : Quat.atan2 (-m 0 2) (-Real.sqrt (m 0 0 ^ 2 + m 0 1 ^ 2)) = -b := by
      have := atan2_of_polar (r := 1) (a := -b) one_pos (by linarith) (by linarith)
      rw [Real.sin_neg, Real.cos_neg] at this
      rw [← this, hs, abs_of_neg hlt, m02]
      congr 1 <;> ring
    unfold eulerAngles
    dsimp only
    rw [if_pos hpos, if_pos hpos]
    exact key _ _ (by rw [hfirst]; ring) hsec
  · have hfirst : Quat.atan2 (m 1 2) (m 2 2) = -a := by
      have := atan2_of_polar (r := Real.cos b) (a := -a) hgt (by linarith) (by linarith)
      rw [Real.sin_neg, Real.cos_neg] at this
      rw [← this, m12, m22]
      congr 1 <;> ring
    have hpos : ¬ Quat.atan2 (m 1 2) (m 2 2) > 0 := by rw [hfirst]; linarith
    have hsec : Quat.atan2 (-m 0 2) (Real.sqrt (m 0 0 ^ 2 + m 0 1 ^ 2)) = -b := by
      have := atan2_of_polar (r := 1) (a := -b) one_pos (by linarith) (by linarith)
      rw [Real.sin_neg, Real.cos_neg] at this
      rw [← this, hs, abs_of_pos hgt, m02]
      congr 1 <;> ring
    unfold eulerAngles
    dsimp only
    rw [if_neg hpos, if_neg hpos]
    exact key _ _ hfirst hsec

/-- C147. Degrees: each angle times 180 / π, so that the first lies in [0, 180) and the others in [-180, 180). -/
theorem C147_degrees {q : Quat} (h : Quat.Unit q) :
    (∀ i, degrees (rpy q) i * (Real.pi / 180) = rpy q i) ∧ (0 ≤ degrees (rpy q) 0 ∧ degrees (rpy q) 0 < 180) ∧
    (-180 ≤ degrees (rpy q) 1 ∧ degrees (rpy q) 1 < 180) ∧ (-180 ≤ degrees (rpy q) 2 ∧ degrees (rpy q) 2 < 180) := by
  obtain ⟨-, ⟨a, b⟩, ⟨c, d⟩, e, f⟩ := C147_recompose h
  have hp := Real.pi_pos
  have lo : ∀ x : ℝ, -Real.pi ≤ x → -180 ≤ 180 * x / Real.pi := fun x hx => by rw [le_div_iff₀ hp]; linarith
  have hi : ∀ x : ℝ, x < Real.pi → 180 * x / Real.pi < 180 := fun x hx => by rw [div_lt_iff₀ hp]; linarith
  refine ⟨fun i => ?_, ⟨?_, hi _ b⟩, ⟨lo _ c, hi _ d⟩, lo _ e, hi _ f⟩
  · unfold degrees
    field_simp
  · exact div_nonneg (mul_nonneg (by norm_num) a) hp.le

/-- C147. A quaternion and its negative have the same angles, and so has an IMU measurement with either. -/
theorem C147_sign (q : Quat) (imu : Imu) : rpy ⟨-q.w, -q.x, -q.y, -q.z⟩ = rpy q ∧ imu.rpy = rpy imu.orientation := by
  have h : (⟨-q.w, -q.x, -q.y, -q.z⟩ : Quat).toMatrix = q.toMatrix := by
    unfold Quat.toMatrix
    simp only [mul_neg, neg_mul, neg_neg]
  refine ⟨?_, rfl⟩
  unfold rpy
  rw [h]

theorem quaternion_x (a : ℝ) : Quat.Unit ⟨Real.cos (a / 2), Real.sin (a / 2), 0, 0⟩ ∧
    (⟨Real.cos (a / 2), Real.sin (a / 2), 0, 0⟩ : Quat).toMatrix = rodrigues a ![1, 0, 0] := by
  have t := Real.sin_sq_add_cos_sq (a / 2)
  constructor
  · unfold Quat.Unit
    simp only
    linarith
  · have e : a = 2 * (a / 2) := by ring
    have hs : Real.sin a = 2 * Real.sin (a / 2) * Real.cos (a / 2) := by rw [← Real.sin_two_mul, ← e]
    have hc : Real.cos a = 1 - 2 * Real.sin (a / 2) ^ 2 := by
      have := Real.cos_two_mul (a / 2)
      rw [← e] at this
      rw [this]; linarith
    rw [rodrigues_x, hs, hc]
    unfold Quat.toMatrix
    ext i j
    fin_cases i <;> fin_cases j <;> simp <;> ring

/-- C147 fails for small angles: a small negative roll is not shown as such. The roll of the rotation by `-a` about x is shown as
`π - a` for every `a` between 0 and π, with the half turn made up for by the pitch and the yaw. -/
theorem C147_fails_negative_roll {a : ℝ} (h0 : 0 < a) (h1 : a < Real.pi) :
    ∃ q, Quat.Unit q ∧ q.toMatrix = rodrigues (-a) ![1, 0, 0] ∧ rpy q = ![Real.pi - a, -Real.pi, -Real.pi] := by
  obtain ⟨hu, hm⟩ := quaternion_x (-a)
  refine ⟨_, hu, hm, C147_unique (by linarith) (by linarith) le_rfl (by linarith [Real.pi_pos]) le_rfl (by linarith [Real.pi_pos])
    (by rw [Real.cos_neg, Real.cos_pi]; norm_num) ?_⟩
  rw [hm, product_xyz, rodrigues_x]
  ext i j
  fin_cases i <;> fin_cases j <;> simp

/-- C147 fails to show that an orientation is not known: the quaternion (0, 0, 0, 0), which means that, has the angles of the identity. -/
theorem C147_fails_unknown : rpy ⟨0, 0, 0, 0⟩ = 0 ∧ rpy Quat.id = 0 ∧ ¬ Quat.Unit ⟨0, 0, 0, 0⟩ := by
  have h : ∀ q : Quat, q.toMatrix = 1 → rpy q = 0 := by
    intro q hq
    have := C147_unique (q := q) (a := 0) (b := 0) (c := 0) le_rfl Real.pi_pos (by linarith [Real.pi_pos]) Real.pi_pos
      (by linarith [Real.pi_pos]) Real.pi_pos (by simp) (by
        rw [hq, product_xyz]
        ext i j
        fin_cases i <;> fin_cases j <;> simp)
    rw [this]
    ext i
    fin_cases i <;> rfl
  refine ⟨h _ ?_, h _ ?_, by norm_num [Quat.Unit]⟩
  · ext i j
    fin_cases i <;> fin_cases j <;> simp [Quat.toMatrix]
  · ext i j
    fin_cases i <;> fin_cases j <;> simp [Quat.toMatrix, Quat.id]

/-- A turn by a tenth of a radian about x. -/
example : ∃ q, Quat.Unit q ∧ rpy q = ![1 / 10, 0, 0] := by
  obtain ⟨hu, hm⟩ := quaternion_x (1 / 10)
  have := Real.two_le_pi
  refine ⟨_, hu, C147_unique (by norm_num) (by linarith) (by linarith) (by linarith) (by linarith) (by linarith) (by simp) ?_⟩
  rw [hm, product_xyz, rodrigues_x]
  ext i j
  fin_cases i <;> fin_cases j <;> simp

end EigenRos

end Serpent
