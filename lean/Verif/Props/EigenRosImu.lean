import Verif.Lemmas.EigenRos

/-!
# C49: interpolation and change of frame of IMU measurements
-/

namespace Serpent

namespace EigenRos

open EigenExt Matrix Utils

/-- The value of a quantity at time `t` on the straight line from `x` at `t1` to `y` at `t2`, without division. -/
def OnLine (t1 t2 t : Int) (x y z : ℝ) : Prop := ((t2 : ℝ) - t1) * z = ((t2 : ℝ) - t) * x + ((t : ℝ) - t1) * y

/-- C49. The call throws exactly outside of the time interval. -/
theorem C49_throws_iff (a b : Imu) (t : Int) :
    (interpolateMeasurements a b t = .throws ↔ t < a.timestamp ∨ b.timestamp < t) ∧
    interpolateMeasurements a b t ≠ .ub := by
  unfold interpolateMeasurements interpolateImu
  by_cases h : t < a.data.stamp ∨ t > b.data.stamp
  · rw [if_pos h]
    exact ⟨⟨fun _ => h, fun _ => rfl⟩, by simp⟩
  · rw [if_neg h]
    by_cases e : a.data.stamp = b.data.stamp
    · rw [if_pos e]
      exact ⟨⟨by simp, fun h' => absurd h' h⟩, by simp⟩
    · rw [if_neg e]
      exact ⟨⟨by simp, fun h' => absurd h' h⟩, by simp⟩

/-- The result for different time stamps. -/
theorem interpolate_eq (a b m : Imu) (t : Int) (hab : a.timestamp < b.timestamp)
    (h : interpolateMeasurements a b t = .ok m) :
    a.timestamp ≤ t ∧ t ≤ b.timestamp ∧
    let s : ℝ := ((t - a.timestamp : Int) : ℝ) / ((b.timestamp - a.timestamp : Int) : ℝ)
    open Classical in
    m = { orientation := if a.orientation = ⟨0, 0, 0, 0⟩ ∨ b.orientation = ⟨0, 0, 0, 0⟩ then ⟨0, 0, 0, 0⟩
            else slerp s a.orientation b.orientation
          angularVelocity := lerp a.angularVelocity b.angularVelocity s
          linearAcceleration := lerp a.linearAcceleration b.linearAcceleration s
          orientationCov := if s ≤ 1 / 2 then a.orientationCov else b.orientationCov
          angularVelocityCov := if s ≤ 1 / 2 then a.angularVelocityCov else b.angularVelocityCov
          linearAccelerationCov := if s ≤ 1 / 2 then a.linearAccelerationCov else b.linearAccelerationCov
          timestamp := t
          frame := if s ≤ 1 / 2 then a.frame else b.frame } := by
  unfold interpolateMeasurements interpolateImu at h
  by_cases hb : t < a.data.stamp ∨ t > b.data.stamp
  · rw [if_pos hb] at h; simp at h
  · rw [if_neg hb, if_neg (show ¬ a.data.stamp = b.data.stamp from ne_of_lt hab)] at h
    push Not at hb
    refine ⟨hb.1, hb.2, ?_⟩
    exact (Outcome.ok.inj h).symm

/-- C49. The result is stamped with the requested time, and angular velocity and linear acceleration are, component by
component, on the straight line between the two measurements; in particular between them. -/
theorem C49_values (a b m : Imu) (t : Int) (hab : a.timestamp < b.timestamp)
    (h : interpolateMeasurements a b t = .ok m) :
    m.timestamp = t ∧
    ∀ i : Fin 3,
      OnLine a.timestamp b.timestamp t (a.angularVelocity i) (b.angularVelocity i) (m.angularVelocity i) ∧
      OnLine a.timestamp b.timestamp t (a.linearAcceleration i) (b.linearAcceleration i) (m.linearAcceleration i) ∧
      min (a.angularVelocity i) (b.angularVelocity i) ≤ m.angularVelocity i ∧
      m.angularVelocity i ≤ max (a.angularVelocity i) (b.angularVelocity i) ∧
      min (a.linearAcceleration i) (b.linearAcceleration i) ≤ m.linearAcceleration i ∧
      m.linearAcceleration i ≤ max (a.linearAcceleration i) (b.linearAcceleration i) := by
  obtain ⟨h1, h2, rfl⟩ := interpolate_eq a b m t hab h
  refine ⟨rfl, fun i => ?_⟩
  have hpos : (0 : ℝ) < ((b.timestamp - a.timestamp : Int) : ℝ) := by
    have : (0 : Int) < b.timestamp - a.timestamp := by omega
    exact_mod_cast this
  have hs0 : (0 : ℝ) ≤ ((t - a.timestamp : Int) : ℝ) / ((b.timestamp - a.timestamp : Int) : ℝ) := by
    apply div_nonneg _ hpos.le
    have : (0 : Int) ≤ t - a.timestamp := by omega
    exact_mod_cast this
  have hs1 : ((t - a.timestamp : Int) : ℝ) / ((b.timestamp - a.timestamp : Int) : ℝ) ≤ 1 := by
    rw [div_le_one hpos]
    have : t - a.timestamp ≤ b.timestamp - a.timestamp := by omega
    exact_mod_cast this
  have hs : ((t - a.timestamp : Int) : ℝ) / ((b.timestamp - a.timestamp : Int) : ℝ) * ((b.timestamp - a.timestamp : Int) : ℝ) =
      ((t - a.timestamp : Int) : ℝ) := div_mul_cancel₀ _ hpos.ne'
  generalize ((t - a.timestamp : Int) : ℝ) / ((b.timestamp - a.timestamp : Int) : ℝ) = s at hs hs0 hs1
  have line : ∀ x y : ℝ, OnLine a.timestamp b.timestamp t x y ((1 - s) * x + s * y) := by
    intro x y
    unfold OnLine
    push_cast at hs
    linear_combination (y - x) * hs
  have lo : ∀ x y : ℝ, min x y ≤ (1 - s) * x + s * y := by
    intro x y
    have e1 := mul_le_mul_of_nonneg_left (min_le_left x y) (sub_nonneg.2 hs1)
    have e2 := mul_le_mul_of_nonneg_left (min_le_right x y) hs0
    linarith
  have hi : ∀ x y : ℝ, (1 - s) * x + s * y ≤ max x y := by
    intro x y
    have e1 := mul_le_mul_of_nonneg_left (le_max_left x y) (sub_nonneg.2 hs1)
    have e2 := mul_le_mul_of_nonneg_left (le_max_right x y) hs0
    linarith
  exact ⟨line _ _, line _ _, lo _ _, hi _ _, lo _ _, hi _ _⟩

/-- C49. Covariances and frame are those of the nearer measurement (of the first one, if both are equally near). -/
theorem C49_metadata (a b m : Imu) (t : Int) (hab : a.timestamp < b.timestamp)
    (h : interpolateMeasurements a b t = .ok m) :
    (t - a.timestamp ≤ b.timestamp - t → m.orientationCov = a.orientationCov ∧
      m.angularVelocityCov = a.angularVelocityCov ∧ m.linearAccelerationCov = a.linearAccelerationCov ∧ m.frame = a.frame) ∧
    (b.timestamp - t < t - a.timestamp → m.orientationCov = b.orientationCov ∧
      m.angularVelocityCov = b.angularVelocityCov ∧ m.linearAccelerationCov = b.linearAccelerationCov ∧ m.frame = b.frame) := by
  obtain ⟨h1, h2, rfl⟩ := interpolate_eq a b m t hab h
  have hpos : (0 : ℝ) < ((b.timestamp - a.timestamp : Int) : ℝ) := by
    have : (0 : Int) < b.timestamp - a.timestamp := by omega
    exact_mod_cast this
  have key : ((t - a.timestamp : Int) : ℝ) / ((b.timestamp - a.timestamp : Int) : ℝ) ≤ 1 / 2 ↔
      t - a.timestamp ≤ b.timestamp - t := by
    rw [div_le_iff₀ hpos]
    constructor
    · intro h
      have : 2 * ((t - a.timestamp : Int) : ℝ) ≤ ((b.timestamp - a.timestamp : Int) : ℝ) := by linarith
      have : 2 * (t - a.timestamp) ≤ b.timestamp - a.timestamp := by exact_mod_cast this
      omega
    · intro h
      have : 2 * (t - a.timestamp) ≤ b.timestamp - a.timestamp := by omega
      have : 2 * ((t - a.timestamp : Int) : ℝ) ≤ ((b.timestamp - a.timestamp : Int) : ℝ) := by exact_mod_cast this
      linarith
  constructor
  · intro h
    have := key.2 h
    simp only [this, if_true, and_self]
  · intro h
    have := mt key.1 (by omega)
    simp only [this, if_false, and_self]

/-- C49, at the first time stamp: the first measurement comes back. Missing: the orientation is lost if the orientation of the
second measurement is not known (see `C49_fails_unknown_orientation`). -/
theorem C49_start_partial (a b : Imu) (hab : a.timestamp ≤ b.timestamp)
    (ho : a.timestamp = b.timestamp ∨ a.orientation = ⟨0, 0, 0, 0⟩ ∨ b.orientation ≠ ⟨0, 0, 0, 0⟩) :
    interpolateMeasurements a b a.timestamp = .ok a := by
  rcases hab.eq_or_lt with e | hlt
  · unfold interpolateMeasurements interpolateImu
    rw [if_neg (by change ¬ (a.timestamp < a.timestamp ∨ a.timestamp > b.timestamp); omega),
      if_pos (show a.data.stamp = b.data.stamp from e)]
    rfl
  · obtain ⟨m, hm⟩ : ∃ m, interpolateMeasurements a b a.timestamp = .ok m := by
      obtain ⟨h1, h2⟩ := C49_throws_iff a b a.timestamp
      cases h : interpolateMeasurements a b a.timestamp with
      | ok m => exact ⟨m, rfl⟩
      | throws => have := h1.1 h; omega
      | ub => exact absurd h h2
    rw [hm]
    obtain ⟨-, -, rfl⟩ := interpolate_eq a b m _ hlt hm
    refine congrArg _ ?_
    simp only [sub_self, Int.cast_zero, zero_div]
    have hh : (0 : ℝ) ≤ 1 / 2 := by norm_num
    have hl : ∀ x y : Fin 3 → ℝ, lerp x y (0 : ℝ) = x := by
      intro x y; funext i; unfold lerp; ring
    simp only [hh, if_true, hl, slerp_zero]
    by_cases ha : a.orientation = ⟨0, 0, 0, 0⟩
    · ext <;> simp [ha]
    · have hb : b.orientation ≠ ⟨0, 0, 0, 0⟩ := by
        rcases ho with h | h | h
        · omega
        · exact absurd h ha
        · exact h
      simp only [ha, hb, or_self, if_false]

/-- C49 fails at the first time stamp: a known orientation is lost if the other measurement has none. -/
theorem C49_fails_unknown_orientation (a b : Imu) (hab : a.timestamp < b.timestamp) (ha : a.orientation ≠ ⟨0, 0, 0, 0⟩)
    (hb : b.orientation = ⟨0, 0, 0, 0⟩) :
    interpolateMeasurements a b a.timestamp ≠ .ok a := by
  intro h
  obtain ⟨-, -, e⟩ := interpolate_eq a b a _ hab h
  have := congrArg Imu.orientation e
  simp only [hb, or_true, if_true] at this
  exact ha this

/-- C49, at the second time stamp (if it is later than the first): readings, covariances and frame of the second measurement;
the orientation is the same rotation (its quaternion may have the other sign). Missing: with equal time stamps the first
measurement is returned, and the orientation is lost if that of the first measurement is not known. -/
theorem C49_end_partial (a b : Imu) (hab : a.timestamp < b.timestamp) :
    ∃ m, interpolateMeasurements a b b.timestamp = .ok m ∧
      m.angularVelocity = b.angularVelocity ∧ m.linearAcceleration = b.linearAcceleration ∧
      m.orientationCov = b.orientationCov ∧ m.angularVelocityCov = b.angularVelocityCov ∧
      m.linearAccelerationCov = b.linearAccelerationCov ∧ m.frame = b.frame ∧ m.timestamp = b.timestamp ∧
      (a.orientation ≠ ⟨0, 0, 0, 0⟩ →
        (m.orientation = b.orientation ∨ m.orientation = b.orientation.neg) ∧
        m.orientation.toMatrix = b.orientation.toMatrix) := by
  obtain ⟨m, hm⟩ : ∃ m, interpolateMeasurements a b b.timestamp = .ok m := by
    obtain ⟨h1, h2⟩ := C49_throws_iff a b b.timestamp
    cases h : interpolateMeasurements a b b.timestamp with
    | ok m => exact ⟨m, rfl⟩
    | throws => have := h1.1 h; omega
    | ub => exact absurd h h2
  refine ⟨m, hm, ?_⟩
  obtain ⟨-, -, rfl⟩ := interpolate_eq a b m _ hab hm
  have hpos : (0 : ℝ) < ((b.timestamp - a.timestamp : Int) : ℝ) := by
    have : (0 : Int) < b.timestamp - a.timestamp := by omega
    exact_mod_cast this
  have hh : ¬ (1 : ℝ) ≤ 1 / 2 := by norm_num
  have hl : ∀ x y : Fin 3 → ℝ, lerp x y (1 : ℝ) = y := by
    intro x y; funext i; unfold lerp; ring
  simp only [div_self hpos.ne', hh, if_false, hl, slerp_one, true_and]
  intro ha
  by_cases hb : b.orientation = ⟨0, 0, 0, 0⟩
  · simp [hb]
  · simp only [ha, hb, or_self, if_false]
    split
    · exact ⟨Or.inr rfl, Quat.toMatrix_neg _⟩
    · exact ⟨Or.inl rfl, rfl⟩

/-- C49 fails at the second time stamp for two different measurements with the same time stamp. -/
theorem C49_fails_equal_stamps (a b : Imu) (hab : a.timestamp = b.timestamp)
    (hne : a.angularVelocity ≠ b.angularVelocity) :
    ∃ m, interpolateMeasurements a b b.timestamp = .ok m ∧ m.angularVelocity ≠ b.angularVelocity := by
  refine ⟨a, ?_, hne⟩
  rw [← hab]
  exact C49_start_partial a b hab.le (Or.inl hab)

/-- C49. Orientations of two unit quaternions that are not almost parallel: the result is a unit quaternion, its angle from
the first orientation is the fraction `(t - t1) / (t2 - t1)` of the angle between the two, and its angle from the second is
the rest. -/
theorem C49_orientation (a b m : Imu) (t : Int) (hab : a.timestamp < b.timestamp)
    (h : interpolateMeasurements a b t = .ok m) (ha : Quat.Unit a.orientation) (hb : Quat.Unit b.orientation)
    (hd : |dot a.orientation b.orientation| < 1 - epsilon) :
    Quat.Unit m.orientation ∧
    ((b.timestamp : ℝ) - a.timestamp) * rotationAngle (m.orientation.toMatrix * a.orientation.toMatrixᵀ) =
      ((t : ℝ) - a.timestamp) * rotationAngle (a.orientation.toMatrix * b.orientation.toMatrixᵀ) ∧
    ((b.timestamp : ℝ) - a.timestamp) * rotationAngle (m.orientation.toMatrix * b.orientation.toMatrixᵀ) =
      ((b.timestamp : ℝ) - t) * rotationAngle (a.orientation.toMatrix * b.orientation.toMatrixᵀ) := by
  have nz : ∀ {q : Quat}, Quat.Unit q → q ≠ ⟨0, 0, 0, 0⟩ := by
    rintro q hq rfl
    unfold Quat.Unit at hq
    norm_num at hq
  obtain ⟨h1, h2, rfl⟩ := interpolate_eq a b m t hab h
  simp only [nz ha, nz hb, or_self, if_false]
  have hpos : (0 : ℝ) < ((b.timestamp - a.timestamp : Int) : ℝ) := by
    have : (0 : Int) < b.timestamp - a.timestamp := by omega
    exact_mod_cast this
  have hs0 : (0 : ℝ) ≤ ((t - a.timestamp : Int) : ℝ) / ((b.timestamp - a.timestamp : Int) : ℝ) := by
    apply div_nonneg _ hpos.le
    have : (0 : Int) ≤ t - a.timestamp := by omega
    exact_mod_cast this
  have hs1 : ((t - a.timestamp : Int) : ℝ) / ((b.timestamp - a.timestamp : Int) : ℝ) ≤ 1 := by
    rw [div_le_one hpos]
    have : t - a.timestamp ≤ b.timestamp - a.timestamp := by omega
    exact_mod_cast this
  have hs : ((t - a.timestamp : Int) : ℝ) / ((b.timestamp - a.timestamp : Int) : ℝ) * ((b.timestamp - a.timestamp : Int) : ℝ) =
      ((t - a.timestamp : Int) : ℝ) := div_mul_cancel₀ _ hpos.ne'
  generalize ((t - a.timestamp : Int) : ℝ) / ((b.timestamp - a.timestamp : Int) : ℝ) = s at hs hs0 hs1
  obtain ⟨u, da, db⟩ := slerp_general ha hb hd s
  have hθ0 : 0 ≤ Real.arccos |dot a.orientation b.orientation| := Real.arccos_nonneg _
  have hθ1 : Real.arccos |dot a.orientation b.orientation| ≤ Real.pi / 2 := Real.arccos_le_pi_div_two.2 (abs_nonneg _)
  have hcos : Real.cos (Real.arccos |dot a.orientation b.orientation|) = |dot a.orientation b.orientation| :=
    Real.cos_arccos (by linarith [abs_nonneg (dot a.orientation b.orientation)]) (by linarith [epsilon_pos])
  generalize Real.arccos |dot a.orientation b.orientation| = θ at da db hθ0 hθ1 hcos
  have dbl : ∀ x, 2 * Real.cos x ^ 2 - 1 = Real.cos (2 * x) := fun x => by rw [Real.cos_two_mul]
  have tot : rotationAngle (a.orientation.toMatrix * b.orientation.toMatrixᵀ) = 2 * θ := by
    rw [Quat.rotationAngle_eq ha hb, ← sq_abs, ← hcos, dbl, Real.arccos_cos (by linarith) (by linarith)]
  have p1 : 0 ≤ s * θ := mul_nonneg hs0 hθ0
  have p2 : s * θ ≤ θ := mul_le_of_le_one_left hθ0 hs1
  push_cast at hs
  refine ⟨u, ?_, ?_⟩
  · rw [tot, Quat.rotationAngle_eq u ha, da, dbl, Real.arccos_cos (by linarith) (by linarith)]
    linear_combination 2 * θ * hs
  · rw [tot, Quat.rotationAngle_eq u hb, ← sq_abs, db, sq_abs, dbl, Real.arccos_cos (by linarith) (by linarith)]
    linear_combination (-2) * θ * hs

/-- C49. Orientations that are almost parallel: the result is a blend that is a unit quaternion up to half of the rounding
constant. -/
theorem C49_orientation_near (a b m : Imu) (t : Int) (hab : a.timestamp < b.timestamp)
    (h : interpolateMeasurements a b t = .ok m) (ha : Quat.Unit a.orientation) (hb : Quat.Unit b.orientation)
    (hd : 1 - epsilon ≤ |dot a.orientation b.orientation|) :
    1 - epsilon / 2 ≤ dot m.orientation m.orientation ∧ dot m.orientation m.orientation ≤ 1 := by
  have nz : ∀ {q : Quat}, Quat.Unit q → q ≠ ⟨0, 0, 0, 0⟩ := by
    rintro q hq rfl
    unfold Quat.Unit at hq
    norm_num at hq
  have hle : |dot a.orientation b.orientation| ≤ 1 := by
    generalize a.orientation = p at ha
    generalize b.orientation = q at hb
    unfold Quat.Unit at ha hb
    unfold dot
    rw [abs_le]
    constructor
    · nlinarith [sq_nonneg (p.x + q.x), sq_nonneg (p.y + q.y), sq_nonneg (p.z + q.z), sq_nonneg (p.w + q.w)]
    · nlinarith [sq_nonneg (p.x - q.x), sq_nonneg (p.y - q.y), sq_nonneg (p.z - q.z), sq_nonneg (p.w - q.w)]
  obtain ⟨h1, h2, rfl⟩ := interpolate_eq a b m t hab h
  simp only [nz ha, nz hb, or_self, if_false]
  have hpos : (0 : ℝ) < ((b.timestamp - a.timestamp : Int) : ℝ) := by
    have : (0 : Int) < b.timestamp - a.timestamp := by omega
    exact_mod_cast this
  have hs0 : (0 : ℝ) ≤ ((t - a.timestamp : Int) : ℝ) / ((b.timestamp - a.timestamp : Int) : ℝ) := by
    apply div_nonneg _ hpos.le
    have : (0 : Int) ≤ t - a.timestamp := by omega
    exact_mod_cast this
  have hs1 : ((t - a.timestamp : Int) : ℝ) / ((b.timestamp - a.timestamp : Int) : ℝ) ≤ 1 := by
    rw [div_le_one hpos]
    have : t - a.timestamp ≤ b.timestamp - a.timestamp := by omega
    exact_mod_cast this
  generalize ((t - a.timestamp : Int) : ℝ) / ((b.timestamp - a.timestamp : Int) : ℝ) = s at hs0 hs1
  have e : dot (slerp s a.orientation b.orientation) (slerp s a.orientation b.orientation) =
      1 - 2 * (s * (1 - s)) * (1 - |dot a.orientation b.orientation|) := by
    unfold Quat.Unit at ha hb
    unfold slerp
    simp only [ge_iff_le, hd, if_true]
    by_cases hn : dot a.orientation b.orientation < 0
    · rw [abs_of_neg hn]
      simp only [hn, if_true]
      unfold dot
      linear_combination (1 - s) ^ 2 * ha + s ^ 2 * hb
    · rw [abs_of_nonneg (not_lt.1 hn)]
      simp only [hn, if_false]
      unfold dot
      linear_combination (1 - s) ^ 2 * ha + s ^ 2 * hb
  rw [e]
  have q0 : 0 ≤ s * (1 - s) := mul_nonneg hs0 (sub_nonneg.2 hs1)
  have q1 : s * (1 - s) ≤ 1 / 4 := by nlinarith [sq_nonneg (s - 1 / 2)]
  have d0 : 0 ≤ 1 - |dot a.orientation b.orientation| := sub_nonneg.2 hle
  constructor
  · have := mul_le_mul_of_nonneg_right q1 d0
    nlinarith
  · have := mul_nonneg q0 d0
    nlinarith

/-! ### Change of frame -/

/-- C49. Change of frame with a unit quaternion and its inverse: angular velocity and linear acceleration are rotated into the
new frame, and so are their covariances; the orientation is composed with the rotation; time stamp and frame label stay. The
orientation covariance is turned by the rotation in the other direction. -/
theorem C49_change_frame (imu : Imu) (q : Quat) (ho : Quat.Unit imu.orientation) (hq : Quat.Unit q) :
    let R := q.toMatrix
    let imu' := imu.changeFrame q q.conj
    imu'.angularVelocity = Rᵀ *ᵥ imu.angularVelocity ∧ imu'.linearAcceleration = Rᵀ *ᵥ imu.linearAcceleration ∧
    imu'.angularVelocityCov = Rᵀ * imu.angularVelocityCov * R ∧
    imu'.linearAccelerationCov = Rᵀ * imu.linearAccelerationCov * R ∧
    imu'.orientation.toMatrix = imu.orientation.toMatrix * R ∧
    imu'.orientationCov = R * imu.orientationCov * Rᵀ ∧
    imu'.timestamp = imu.timestamp ∧ imu'.frame = imu.frame ∧ Quat.Rotation R := by
  refine ⟨?_, ?_, ?_, ?_, ?_, rfl, rfl, rfl, hq.rotation⟩
  · change rotate q.conj _ = _; rw [rotate_eq, Quat.toMatrix_conj]
  · change rotate q.conj _ = _; rw [rotate_eq, Quat.toMatrix_conj]
  · change q.conj.toMatrix * _ * q.conj.toMatrixᵀ = _; rw [Quat.toMatrix_conj, Matrix.transpose_transpose]
  · change q.conj.toMatrix * _ * q.conj.toMatrixᵀ = _; rw [Quat.toMatrix_conj, Matrix.transpose_transpose]
  · exact Quat.toMatrix_mul ho hq

/-- C49. A vector of the world frame that the sensor measures is the same before and after: world vectors
`orientation * measurement` do not change. -/
theorem C49_change_frame_world (imu : Imu) (q : Quat) (ho : Quat.Unit imu.orientation) (hq : Quat.Unit q) :
    let imu' := imu.changeFrame q q.conj
    imu'.orientation.toMatrix *ᵥ imu'.angularVelocity = imu.orientation.toMatrix *ᵥ imu.angularVelocity ∧
    imu'.orientation.toMatrix *ᵥ imu'.linearAcceleration = imu.orientation.toMatrix *ᵥ imu.linearAcceleration := by
  obtain ⟨h1, h2, -, -, h5, -, -, -, hR⟩ := C49_change_frame imu q ho hq
  have e : q.toMatrix * q.toMatrixᵀ = 1 := mul_eq_one_comm.1 (Quat.toMatrix_orthogonal hq)
  dsimp only at *
  constructor
  · rw [h5, h1, Matrix.mulVec_mulVec, Matrix.mul_assoc, e, Matrix.mul_one]
  · rw [h5, h2, Matrix.mulVec_mulVec, Matrix.mul_assoc, e, Matrix.mul_one]

/-- C49. Changing back restores the measurement exactly. -/
theorem C49_change_back (imu : Imu) (q : Quat) (hq : Quat.Unit q) :
    (imu.changeFrame q q.conj).changeFrame q.conj q = imu := by
  have e1 : q.toMatrixᵀ * q.toMatrix = 1 := Quat.toMatrix_orthogonal hq
  have e2 : q.toMatrix * q.toMatrixᵀ = 1 := mul_eq_one_comm.1 e1
  have conj1 : ∀ C : Matrix (Fin 3) (Fin 3) ℝ, q.toMatrix * (q.toMatrixᵀ * C * q.toMatrixᵀᵀ) * q.toMatrixᵀ = C := by
    intro C
    rw [Matrix.transpose_transpose]
    calc q.toMatrix * (q.toMatrixᵀ * C * q.toMatrix) * q.toMatrixᵀ
        = (q.toMatrix * q.toMatrixᵀ) * C * (q.toMatrix * q.toMatrixᵀ) := by simp only [Matrix.mul_assoc]
      _ = C := by rw [e2, Matrix.one_mul, Matrix.mul_one]
  have conj2 : ∀ C : Matrix (Fin 3) (Fin 3) ℝ, q.toMatrixᵀ * (q.toMatrix * C * q.toMatrixᵀ) * q.toMatrixᵀᵀ = C := by
    intro C
    rw [Matrix.transpose_transpose]
    calc q.toMatrixᵀ * (q.toMatrix * C * q.toMatrixᵀ) * q.toMatrix
        = (q.toMatrixᵀ * q.toMatrix) * C * (q.toMatrixᵀ * q.toMatrix) := by simp only [Matrix.mul_assoc]
      _ = C := by rw [e1, Matrix.one_mul, Matrix.mul_one]
  have vec : ∀ v : Fin 3 → ℝ, rotate q (rotate q.conj v) = v := by
    intro v
    rw [rotate_eq, rotate_eq, Quat.toMatrix_conj, Matrix.mulVec_mulVec, e2, Matrix.one_mulVec]
  unfold Imu.changeFrame
  simp only [Quat.toMatrix_conj, vec, conj1, conj2, Quat.mul_assoc, Quat.mul_conj' hq, Quat.mul_id]

/-- Two measurements one second apart, a quarter turn between them. -/
noncomputable def imuA : Imu := ⟨⟨1, 0, 0, 0⟩, ![1, 0, 0], ![0, 0, 9], 0, 0, 0, 0, "a"⟩
noncomputable def imuB : Imu := ⟨⟨0, 0, 0, 1⟩, ![3, 0, 0], ![0, 0, 11], 1, 1, 1, 1000000000, "b"⟩

example : imuA.timestamp < imuB.timestamp ∧ Quat.Unit imuA.orientation ∧ Quat.Unit imuB.orientation ∧
    |dot imuA.orientation imuB.orientation| < 1 - epsilon := by
  refine ⟨by norm_num [imuA, imuB], by norm_num [imuA, Quat.Unit], by norm_num [imuB, Quat.Unit], ?_⟩
  norm_num [imuA, imuB, dot, epsilon]

end EigenRos

end Serpent
