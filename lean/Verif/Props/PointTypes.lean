import Verif.Model.PointTypes
import Verif.Lemmas.Quaternion
import Mathlib.LinearAlgebra.Matrix.PosDef
import Mathlib.Algebra.Order.Star.Real

/-!
# C113: points with poses, covariances and directions
-/

namespace Serpent

namespace PointTypes

open EigenExt Matrix

theorem normalized_pos {x y z : ℝ} (h : 0 < x * x + y * y + z * z) :
    normalized ![x, y, z] = fun i => ![x, y, z] i / Real.sqrt (x * x + y * y + z * z) := if_pos h

theorem normalized_zero {x y z : ℝ} (h : ¬ 0 < x * x + y * y + z * z) : normalized ![x, y, z] = ![x, y, z] := if_neg h

/-- The rotation matrix of a point is that of the vector it holds. -/
theorem getRotationMatrix_eq (p : PointAngleAxis) : p.getRotationMatrix = expRotation ![p.r.x, p.r.y, p.r.z] := by
  have hs : (∑ i, (![p.r.x, p.r.y, p.r.z] : Fin 3 → ℝ) i ^ 2) = p.r.x * p.r.x + p.r.y * p.r.y + p.r.z * p.r.z := by
    rw [Fin.sum_univ_three]
    simp only [cons_val_zero, cons_val_one, cons_val]
    ring
  unfold PointAngleAxis.getRotationMatrix PointAngleAxis.getAngleAxis PointAngleAxis.angle expRotation
  dsimp only
  rw [hs]
  set n := p.r.x * p.r.x + p.r.y * p.r.y + p.r.z * p.r.z with hn
  have hn0 : 0 ≤ n := by rw [hn]; nlinarith [sq_nonneg p.r.x, sq_nonneg p.r.y, sq_nonneg p.r.z]
  by_cases h : 0 < n
  · rw [normalized_pos h, if_neg (Real.sqrt_pos.2 h).ne', ← hn]
    have hq := Real.sq_sqrt hn0
    have hne := (Real.sqrt_pos.2 h).ne'
    have h1 : (p.r.x / Real.sqrt n) ^ 2 + (p.r.y / Real.sqrt n) ^ 2 + (p.r.z / Real.sqrt n) ^ 2 = 1 := by
      rw [div_pow, div_pow, div_pow, ← add_div, ← add_div, hq, div_eq_one_iff_eq h.ne', hn]
      ring
    generalize Real.sqrt n = a at *
    funext i j
    fin_cases i <;> fin_cases j <;>
      simp [angleAxisMatrix, rodrigues, skewOf] <;>
      first
      | linear_combination (1 - Real.cos a) * h1
      | ring
  · have h0 : n = 0 := le_antisymm (not_lt.1 h) hn0
    rw [normalized_zero h, if_pos (by rw [h0, Real.sqrt_zero]), h0, Real.sqrt_zero]
    funext i j
    fin_cases i <;> fin_cases j <;> simp [angleAxisMatrix]

theorem r_setPose (p : PointAngleAxis) (t : Fin 3 → ℝ) (a : AngleAxis) :
    (![(p.setPose t a).r.x, (p.setPose t a).r.y, (p.setPose t a).r.z] : Fin 3 → ℝ) = fun i => a.axis i * a.angle := by
  funext i
  fin_cases i <;> rfl

theorem data_setPose (p : PointAngleAxis) (t : Fin 3 → ℝ) (a : AngleAxis) : (p.setPose t a).data.vec = t := by
  funext i
  fin_cases i <;> rfl

/-- C113. The pose of a point that was made from a position and a unit quaternion, or whose pose was set to these, is that pose. -/
theorem C113_pose_quaternion (p : PointAngleAxis) (t : Fin 3 → ℝ) {q : Quat} (hq : Quat.Unit q) :
    (p.setPoseQuat t q).getIsometry = ⟨q.toMatrix, t⟩ ∧ (PointAngleAxis.ofQuat t q).getIsometry = ⟨q.toMatrix, t⟩ := by
  have h : ∀ p : PointAngleAxis, (p.setPoseQuat t q).getIsometry = ⟨q.toMatrix, t⟩ := by
    intro p
    unfold PointAngleAxis.getIsometry
    rw [getRotationMatrix_eq]
    unfold PointAngleAxis.setPoseQuat
    rw [r_setPose, data_setPose]
    show (⟨expRotation q.rotVec, t⟩ : Iso ℝ) = _
    rw [Quat.expRotation_rotVec hq]
  exact ⟨h p, h _⟩

/-- C113. The same for a transform, whose rotation is a rotation. -/
theorem C113_pose (p : PointAngleAxis) {T : Iso ℝ} (hT : Quat.Rotation T.R) :
    (p.setPoseIso T).getIsometry = T ∧ (PointAngleAxis.ofIso T).getIsometry = T := by
  have h := C113_pose_quaternion p T.t (Quat.ofMatrix_unit hT)
  rw [Quat.toMatrix_ofMatrix hT] at h
  exact h

/-- C113. The same for an axis of length 1 and any angle: the rotation is the rotation about this axis by this angle. -/
theorem C113_pose_angle_axis (p : PointAngleAxis) (t : Fin 3 → ℝ) (a : AngleAxis) (ha : a.axis 0 ^ 2 + a.axis 1 ^ 2 + a.axis 2 ^ 2 = 1) :
    (p.setPose t a).getIsometry = ⟨rodrigues a.angle a.axis, t⟩ ∧
    (PointAngleAxis.ofAngleAxis t a).getIsometry = ⟨rodrigues a.angle a.axis, t⟩ := by
  have hexp : expRotation (fun i => a.axis i * a.angle) = rodrigues a.angle a.axis := by
    have hs : (∑ i, (a.axis i * a.angle) ^ 2) = a.angle ^ 2 := by
      rw [Fin.sum_univ_three]
      linear_combination a.angle ^ 2 * ha
    unfold expRotation
    dsimp only
    rw [hs, Real.sqrt_sq_eq_abs]
    by_cases h0 : a.angle = 0
    · rw [h0, if_pos (by simp)]
      unfold rodrigues
      simp
    · rw [if_neg (abs_ne_zero.2 h0)]
      rcases lt_or_gt_of_ne h0 with h | h
      · rw [abs_of_neg h]
        have : (fun i => a.axis i * a.angle / -a.angle) = fun i => -a.axis i := by
          funext i
          field_simp
        rw [this]
        unfold rodrigues skewOf
        rw [Real.sin_neg, Real.cos_neg]
        funext i j
        fin_cases i <;> fin_cases j <;> simp
      · rw [abs_of_pos h]
        have : (fun i => a.axis i * a.angle / a.angle) = a.axis := by
          funext i
          field_simp
        rw [this]
  have h : ∀ p : PointAngleAxis, (p.setPose t a).getIsometry = ⟨rodrigues a.angle a.axis, t⟩ := by
    intro p
    unfold PointAngleAxis.getIsometry
    rw [getRotationMatrix_eq, r_setPose, data_setPose, hexp]
  exact ⟨h p, h _⟩

/-- C113. The quaternion of a point has length 1 and the rotation of the point, whatever the point holds. -/
theorem C113_quaternion (p : PointAngleAxis) : Quat.Unit p.getQuaternion ∧ p.getQuaternion.toMatrix = p.getRotationMatrix := by
  have hax : p.angle = 0 ∨ p.getAngleAxis.axis 0 ^ 2 + p.getAngleAxis.axis 1 ^ 2 + p.getAngleAxis.axis 2 ^ 2 = 1 := by
    unfold PointAngleAxis.getAngleAxis PointAngleAxis.angle
    dsimp only
    set n := p.r.x * p.r.x + p.r.y * p.r.y + p.r.z * p.r.z with hn
    by_cases h : 0 < n
    · right
      rw [normalized_pos h, ← hn]
      simp only [cons_val_zero, cons_val_one, cons_val]
      rw [div_pow, div_pow, div_pow, ← add_div, ← add_div, Real.sq_sqrt h.le, div_eq_one_iff_eq h.ne', hn]
      ring
    · left
      exact Real.sqrt_eq_zero_of_nonpos (not_lt.1 h)
  have hang : p.getAngleAxis.angle = p.angle := rfl
  have hc := Real.cos_sq' (1 / 2 * p.angle)
  have hcos : Real.cos p.angle = 2 * Real.cos (1 / 2 * p.angle) ^ 2 - 1 := by rw [← Real.cos_two_mul]; congr 1; ring
  have hsin : Real.sin p.angle = 2 * Real.sin (1 / 2 * p.angle) * Real.cos (1 / 2 * p.angle) := by
    rw [← Real.sin_two_mul]; congr 1; ring
  rcases hax with h0 | h1
  · constructor
    · unfold Quat.Unit PointAngleAxis.getQuaternion
      simp [hang, h0]
    · unfold PointAngleAxis.getRotationMatrix PointAngleAxis.getQuaternion
      funext i j
      fin_cases i <;> fin_cases j <;> simp [Quat.toMatrix, angleAxisMatrix, hang, h0]
  · constructor
    · unfold Quat.Unit PointAngleAxis.getQuaternion
      dsimp only
      rw [hang]
      linear_combination hc + Real.sin (1 / 2 * p.angle) ^ 2 * h1
    · show Quat.toMatrix ⟨Real.cos (1 / 2 * p.angle), Real.sin (1 / 2 * p.angle) * p.getAngleAxis.axis 0,
        Real.sin (1 / 2 * p.angle) * p.getAngleAxis.axis 1, Real.sin (1 / 2 * p.angle) * p.getAngleAxis.axis 2⟩ =
        angleAxisMatrix p.angle p.getAngleAxis.axis
      clear hang
      generalize p.getAngleAxis.axis = u at *
      generalize hC : Real.cos (1 / 2 * p.angle) = C at *
      generalize hS : Real.sin (1 / 2 * p.angle) = S at *
      funext i j
      fin_cases i <;> fin_cases j <;> simp only [Quat.toMatrix, angleAxisMatrix, hcos, hsin, Matrix.of_apply,
        Matrix.cons_val', cons_val_zero, cons_val_one, cons_val, Fin.zero_eta, Fin.mk_one, Fin.reduceFinMk]
      · linear_combination (-2 : ℝ) * S ^ 2 * h1 + (-2 + 2 * u 0 ^ 2) * hc
      · linear_combination (2 * u 0 * u 1) * hc
      · linear_combination (2 * u 0 * u 2) * hc
      · linear_combination (2 * u 0 * u 1) * hc
      · linear_combination (-2 : ℝ) * S ^ 2 * h1 + (-2 + 2 * u 1 ^ 2) * hc
      · linear_combination (2 * u 1 * u 2) * hc
      · linear_combination (2 * u 0 * u 2) * hc
      · linear_combination (2 * u 1 * u 2) * hc
      · linear_combination (-2 : ℝ) * S ^ 2 * h1 + (-2 + 2 * u 2 ^ 2) * hc

/-- C113. A point made from another point, and a point without arguments, hold four determinate values: position and 1, vector and 0. -/
theorem C113_copy (p : PointAngleAxis) :
    p.copy.data.vec4 = .ok ![p.data.x, p.data.y, p.data.z, 1] ∧ p.copy.r.vec4 = .ok ![p.r.x, p.r.y, p.r.z, 0] ∧
    p.copy.getIsometry = p.getIsometry ∧ PointAngleAxis.default.getIsometry = Iso.id := by
  refine ⟨rfl, rfl, rfl, ?_⟩
  unfold PointAngleAxis.getIsometry
  rw [getRotationMatrix_eq]
  have h1 : expRotation ![PointAngleAxis.default.r.x, PointAngleAxis.default.r.y, PointAngleAxis.default.r.z] = 1 := by
    unfold expRotation
    dsimp only
    rw [if_pos]
    simp [PointAngleAxis.default, Fin.sum_univ_three]
  rw [h1]
  unfold Iso.id
  congr 1
  funext i
  fin_cases i <;> rfl

/-- C113, false for points made from a pose: the fourth coordinate, 1 for all other points, has no value; reading the homogeneous point
is undefined. -/
theorem C113_fails_padding (T : Iso ℝ) (t : Fin 3 → ℝ) (q : Quat) (a : AngleAxis) :
    (PointAngleAxis.ofIso T).data.vec4 = .ub ∧ (PointAngleAxis.ofQuat t q).data.vec4 = .ub ∧
    (PointAngleAxis.ofAngleAxis t a).data.vec4 = .ub ∧ (PointAngleAxis.ofQuat t q).r.vec4 = .ub :=
  ⟨rfl, rfl, rfl, rfl⟩

/-- C113. A symmetric covariance that is stored in a point is read back. -/
theorem C113_covariance (c : Covariance) (m : Matrix (Fin 3) (Fin 3) ℝ) : (c.set m).matrix = m ↔ m.IsSymm := by
  constructor
  · intro h
    rw [← h]
    ext i j
    fin_cases i <;> fin_cases j <;> rfl
  · intro h
    have h01 := h.apply 0 1
    have h02 := h.apply 0 2
    have h12 := h.apply 1 2
    ext i j
    fin_cases i <;> fin_cases j <;> simp [Covariance.matrix, Covariance.set, h01, h02, h12]

/-- C113. What is stored in a point is read as a symmetric matrix, from which the same is stored. -/
theorem C113_covariance_stored (c c' : Covariance) : c.matrix.IsSymm ∧ c'.set c.matrix = c := by
  constructor
  · ext i j
    fin_cases i <;> fin_cases j <;> rfl
  · rfl

/-- C113. The outer product of a direction: symmetric and positive semidefinite, and for a unit vector the projection onto it. -/
theorem C113_outer_product (u : Quad) : (unitOuterProduct u).PosSemidef ∧
    (u.x ^ 2 + u.y ^ 2 + u.z ^ 2 = 1 → unitOuterProduct u * unitOuterProduct u = unitOuterProduct u ∧
      unitOuterProduct u *ᵥ u.vec = u.vec) := by
  have he : unitOuterProduct u = Matrix.vecMulVec u.vec (star u.vec) := by
    ext i j
    simp [unitOuterProduct, Matrix.vecMulVec_apply]
  refine ⟨by rw [he]; exact Matrix.posSemidef_vecMulVec_self_star _, fun h => ?_⟩
  constructor
  · funext i j
    simp only [Matrix.mul_apply, unitOuterProduct, Matrix.of_apply, Fin.sum_univ_three]
    have e : u.vec 0 ^ 2 + u.vec 1 ^ 2 + u.vec 2 ^ 2 = 1 := h
    linear_combination (u.vec i * u.vec j) * e
  · funext i
    simp only [Matrix.mulVec, dotProduct, unitOuterProduct, Matrix.of_apply, Fin.sum_univ_three]
    have e : u.vec 0 ^ 2 + u.vec 1 ^ 2 + u.vec 2 ^ 2 = 1 := h
    linear_combination u.vec i * e

/-- C113. Column `i` of the extracted directions is the direction of point `i`, for all points. -/
theorem C113_directions (points : List Quad) (M : Matrix (Fin 3) (Fin points.length) ℝ) (i : Fin points.length) :
    (fun k => extractUnitVectors points M k i) = points[i].vec := by
  have gen : ∀ (l : List (Fin points.length)) (M : Matrix (Fin 3) (Fin points.length) ℝ), (i ∈ l ∨ ∀ k, M k i = points[i].vec k) →
      ∀ k, l.foldl (fun M i => setColumn M i ![points[i].x, points[i].y, points[i].z]) M k i = points[i].vec k := by
    intro l
    induction l with
    | nil => exact fun M h k => (h.resolve_left (List.not_mem_nil)) k
    | cons j l ih =>
      intro M h k
      refine ih _ ?_ k
      by_cases hj : i = j
      · right
        intro k
        show (if i = j then _ else _) = _
        rw [if_pos hj, hj]
        rfl
      · rcases h with h | h
        · exact .inl ((List.mem_cons.1 h).resolve_left hj)
        · right
          intro k
          show (if i = j then _ else _) = _
          rw [if_neg hj]
          exact h k
  funext k
  exact gen _ M (.inl (List.mem_finRange i)) k

open Classical in
/-- C113. The number of normals whose length differs from 1 by more than the threshold. -/
theorem C113_check_normals (normals : List (Fin 3 → ℝ)) (threshold : ℝ) :
    checkNormals normals threshold = normals.countP fun v => decide (threshold < |Real.sqrt (∑ i, v i ^ 2) - 1|) := by
  unfold checkNormals
  have gen : ∀ (l : List (Fin 3 → ℝ)) (n : Nat),
      l.foldl (fun n v => if |Real.sqrt (v 0 ^ 2 + v 1 ^ 2 + v 2 ^ 2) - 1| > threshold then n + 1 else n) n =
        n + l.countP fun v => decide (threshold < |Real.sqrt (∑ i, v i ^ 2) - 1|) := by
    intro l
    induction l with
    | nil => intro n; rfl
    | cons v l ih =>
      intro n
      rw [List.foldl_cons, ih, List.countP_cons, Fin.sum_univ_three]
      simp only [gt_iff_lt, decide_eq_true_eq]
      split <;> omega
  rw [gen, Nat.zero_add]

/-- C113. Times that are floating point numbers are converted from nanoseconds to seconds, each in its place. -/
theorem C113_times (times : List ℝ) : (convertNsToS times).length = times.length ∧
    ∀ (i : Nat) (t : ℝ), times[i]? = some t → ∃ s, (convertNsToS times)[i]? = some s ∧ s * 10 ^ 9 = t := by
  refine ⟨List.length_map _, fun i t h => ⟨t / 1000000000, ?_, by norm_num⟩⟩
  unfold convertNsToS
  rw [List.getElem?_map, h]
  rfl

/-- C113, false for times that are integers (as those of Ouster lidars): every time below one second becomes 0. -/
theorem C113_fails_integer_times (times : List Nat) (h : ∀ t ∈ times, t < 10 ^ 9) :
    convertNsToSInteger times = List.replicate times.length 0 := by
  unfold convertNsToSInteger
  refine List.eq_replicate_iff.2 ⟨List.length_map _, fun x hx => ?_⟩
  obtain ⟨t, ht, rfl⟩ := List.mem_map.1 hx
  exact Nat.div_eq_of_lt (h t ht)

/-- A turn by 180 degrees about the z axis. -/
example : Quat.Unit ⟨0, 0, 0, 1⟩ ∧ Quat.Rotation (Quat.toMatrix ⟨0, 0, 0, 1⟩) ∧ (!![1, 2, 3; 2, 4, 5; 3, 5, 6] : Matrix _ _ ℝ).IsSymm ∧
    ∀ t ∈ [0, 50000000, 99999999], t < 10 ^ 9 := by
  have hu : Quat.Unit ⟨0, 0, 0, 1⟩ := by simp [Quat.Unit]
  refine ⟨hu, hu.rotation, ?_, by decide⟩
  ext i j
  fin_cases i <;> fin_cases j <;> rfl

end PointTypes

end Serpent
