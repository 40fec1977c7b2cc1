import Verif.Model.EigenRos
import Verif.Lemmas.Iso
import Verif.Lemmas.Quaternion
import Mathlib.Tactic.LinearCombination
import Mathlib.Analysis.SpecialFunctions.Trigonometric.Inverse

/-!
# Lemmas about quaternions, poses and interpolation
-/

namespace Serpent

namespace EigenExt

namespace Quat

open Matrix

/-- The opposite quaternion. -/
def neg (q : Quat) : Quat := ⟨-q.w, -q.x, -q.y, -q.z⟩

theorem mul_assoc (a b c : Quat) : a * b * c = a * (b * c) := by
  ext <;> simp only [mul_w, mul_x, mul_y, mul_z] <;> ring

theorem mul_id (a : Quat) : a * Quat.id = a := by
  ext <;> simp only [mul_w, mul_x, mul_y, mul_z, Quat.id] <;> ring

theorem conj_conj (q : Quat) : q.conj.conj = q := by
  ext <;> simp [conj]

theorem mul_conj' {q : Quat} (h : Unit q) : q * q.conj = Quat.id := by
  have := mul_conj h.conj
  rwa [conj_conj] at this

/-- Two unit quaternions of the same rotation are equal up to the sign. -/
theorem eq_or_neg {a b : Quat} (ha : Unit a) (hb : Unit b) (h : a.toMatrix = b.toMatrix) : a = b ∨ a = b.neg := by
  have hd : Unit (a * b.conj) := ha.mul hb.conj
  have ht := toMatrix_trace hd
  rw [toMatrix_mul ha hb.conj, toMatrix_conj, h, mul_eq_one_comm.1 (toMatrix_orthogonal hb)] at ht
  rw [Matrix.trace_one, Fintype.card_fin] at ht
  have hw : (a * b.conj).w = a.w * b.w + a.x * b.x + a.y * b.y + a.z * b.z := by
    rw [mul_w]; simp only [conj]; ring
  rw [hw] at ht
  unfold Unit at ha hb
  push_cast at ht
  have h1 : (a.w * b.w + a.x * b.x + a.y * b.y + a.z * b.z - 1) * (a.w * b.w + a.x * b.x + a.y * b.y + a.z * b.z + 1) = 0 := by
    linarith [ht]
  rcases mul_eq_zero.1 h1 with h | h
  · left
    have e : (a.w - b.w) ^ 2 + (a.x - b.x) ^ 2 + (a.y - b.y) ^ 2 + (a.z - b.z) ^ 2 = 0 := by nlinarith
    have e1 := sq_nonneg (a.w - b.w)
    have e2 := sq_nonneg (a.x - b.x)
    have e3 := sq_nonneg (a.y - b.y)
    have e4 := sq_nonneg (a.z - b.z)
    ext
    · exact sub_eq_zero.1 (pow_eq_zero_iff (two_ne_zero) |>.1 (by linarith))
    · exact sub_eq_zero.1 (pow_eq_zero_iff (two_ne_zero) |>.1 (by linarith))
    · exact sub_eq_zero.1 (pow_eq_zero_iff (two_ne_zero) |>.1 (by linarith))
    · exact sub_eq_zero.1 (pow_eq_zero_iff (two_ne_zero) |>.1 (by linarith))
  · right
    have e : (a.w + b.w) ^ 2 + (a.x + b.x) ^ 2 + (a.y + b.y) ^ 2 + (a.z + b.z) ^ 2 = 0 := by nlinarith
    have e1 := sq_nonneg (a.w + b.w)
    have e2 := sq_nonneg (a.x + b.x)
    have e3 := sq_nonneg (a.y + b.y)
    have e4 := sq_nonneg (a.z + b.z)
    ext
    · exact eq_neg_of_add_eq_zero_left (pow_eq_zero_iff (two_ne_zero) |>.1 (by linarith))
    · exact eq_neg_of_add_eq_zero_left (pow_eq_zero_iff (two_ne_zero) |>.1 (by linarith))
    · exact eq_neg_of_add_eq_zero_left (pow_eq_zero_iff (two_ne_zero) |>.1 (by linarith))
    · exact eq_neg_of_add_eq_zero_left (pow_eq_zero_iff (two_ne_zero) |>.1 (by linarith))

/-- The angle between two rotations given by unit quaternions. -/
theorem rotationAngle_eq {a b : Quat} (ha : Unit a) (hb : Unit b) :
    rotationAngle (a.toMatrix * b.toMatrixᵀ) = Real.arccos (2 * EigenRos.dot a b ^ 2 - 1) := by
  have hd : Unit (a * b.conj) := ha.mul hb.conj
  unfold rotationAngle
  rw [← toMatrix_conj, ← toMatrix_mul ha hb.conj, toMatrix_trace hd]
  have hw : (a * b.conj).w = EigenRos.dot a b := by
    rw [mul_w]; simp only [conj, EigenRos.dot]; ring
  rw [hw]
  congr 1
  ring

end Quat

end EigenExt

namespace EigenRos

open EigenExt Matrix

/-- Eigen's `quaternion * vector` is the product with the matrix of the quaternion. -/
theorem rotate_eq (q : Quat) (v : Fin 3 → ℝ) : rotate q v = q.toMatrix *ᵥ v := by
  have e : v = ![v 0, v 1, v 2] := by funext i; fin_cases i <;> rfl
  rw [e]
  generalize v 0 = a, v 1 = b, v 2 = c
  funext i
  fin_cases i <;>
    simp [rotate, cross, Quat.toMatrix, Matrix.mulVec, dotProduct, Fin.sum_univ_three] <;> ring

theorem changeCovarianceFrame6_one (C : Matrix (Fin 6) (Fin 6) ℝ) : changeCovarianceFrame6 C 1 = C := by
  unfold changeCovarianceFrame6 changeCovarianceFrame changeCovarianceFrameAdj
  rw [adjoint_one]
  funext i j
  simp

theorem changeCovarianceFrame6_zero (T : Iso ℝ) : changeCovarianceFrame6 0 T = 0 := by
  unfold changeCovarianceFrame6 changeCovarianceFrame changeCovarianceFrameAdj
  funext i j
  simp

theorem changeCovarianceFrame6_mul (C : Matrix (Fin 6) (Fin 6) ℝ) {A B : Iso ℝ} (hB : Rigid B) :
    changeCovarianceFrame6 (changeCovarianceFrame6 C A) B = changeCovarianceFrame6 C (B * A) := by
  unfold changeCovarianceFrame6 changeCovarianceFrame changeCovarianceFrameAdj
  rw [hB.adjoint_mul]
  funext i j
  simp only [Matrix.submatrix_submatrix, Matrix.submatrix_apply]
  have e : (sixEquiv.symm ∘ sixEquiv : Fin 3 ⊕ Fin 3 → Fin 3 ⊕ Fin 3) = _root_.id := by
    funext x; exact sixEquiv.symm_apply_apply x
  rw [e, Matrix.submatrix_id_id, Matrix.transpose_mul]
  simp only [Matrix.mul_assoc]

theorem toTransform_rigid {p : Pose} (hp : Quat.Unit p.orientation) : Rigid (toTransform p) :=
  ⟨Quat.toMatrix_orthogonal hp, Quat.toMatrix_det hp⟩

theorem rotation_of_rigid {T : Iso ℝ} (h : Rigid T) : Quat.Rotation T.R := ⟨h.orthogonal, h.det⟩

theorem toTransform_ofIsometry {T : Iso ℝ} (h : Rigid T) (C : Matrix (Fin 6) (Fin 6) ℝ) :
    toTransform (Pose.ofIsometry T C) = T := by
  unfold toTransform Pose.ofIsometry
  dsimp only
  rw [Quat.toMatrix_ofMatrix (rotation_of_rigid h)]

theorem applyIsometry_spec {p : Pose} (hp : Quat.Unit p.orientation) {T : Iso ℝ} (hT : Rigid T) :
    toTransform (applyIsometry p T) = toTransform p * T ∧ Quat.Unit (applyIsometry p T).orientation ∧
    (applyIsometry p T).covariance = changeCovarianceFrame6 p.covariance T⁻¹ := by
  have hr := (toTransform_rigid hp).mul hT
  exact ⟨toTransform_ofIsometry hr _, Quat.ofMatrix_unit (rotation_of_rigid hr), rfl⟩

/-! ### Spherical interpolation -/

theorem epsilon_pos : 0 < epsilon := by unfold epsilon; positivity

theorem slerp_zero (a b : Quat) : slerp 0 a b = a := by
  have key : (if |dot a b| ≥ 1 - epsilon then (1 : ℝ) - 0 else
      Real.sin ((1 - 0) * Real.arccos |dot a b|) / Real.sin (Real.arccos |dot a b|)) = 1 := by
    split
    · ring
    · rename_i h
      push Not at h
      have : 0 < Real.sin (Real.arccos |dot a b|) := by
        apply Real.sin_pos_of_pos_of_lt_pi
        · exact Real.arccos_pos.2 (by linarith [epsilon_pos])
        · have := Real.arccos_le_pi_div_two.2 (abs_nonneg (dot a b))
          linarith [Real.pi_pos]
      rw [sub_zero, one_mul, div_self this.ne']
  have key1 : (if |dot a b| ≥ 1 - epsilon then (0 : ℝ) else
      Real.sin (0 * Real.arccos |dot a b|) / Real.sin (Real.arccos |dot a b|)) = 0 := by
    split <;> simp
  unfold slerp
  simp only [key, key1]
  ext <;> simp

theorem slerp_one (a b : Quat) : slerp 1 a b = if dot a b < 0 then b.neg else b := by
  have key : (if |dot a b| ≥ 1 - epsilon then (1 : ℝ) - 1 else
      Real.sin ((1 - 1) * Real.arccos |dot a b|) / Real.sin (Real.arccos |dot a b|)) = 0 := by
    split <;> simp
  have key1 : (if |dot a b| ≥ 1 - epsilon then (1 : ℝ) else
      Real.sin (1 * Real.arccos |dot a b|) / Real.sin (Real.arccos |dot a b|)) = 1 := by
    split
    · rfl
    · rename_i h
      push Not at h
      have : 0 < Real.sin (Real.arccos |dot a b|) := by
        apply Real.sin_pos_of_pos_of_lt_pi
        · exact Real.arccos_pos.2 (by linarith [epsilon_pos])
        · have := Real.arccos_le_pi_div_two.2 (abs_nonneg (dot a b))
          linarith [Real.pi_pos]
      rw [one_mul, div_self this.ne']
  unfold slerp
  simp only [key, key1]
  split <;> ext <;> simp [Quat.neg]

/-- Interpolation away from the parallel case: the quaternion `c0 a + c1 b` where `b` has been given the sign that makes it
near to `a`. -/
theorem slerp_general {a b : Quat} (ha : Quat.Unit a) (hb : Quat.Unit b) (hd : |dot a b| < 1 - epsilon) (t : ℝ) :
    Quat.Unit (slerp t a b) ∧ dot (slerp t a b) a = Real.cos (t * Real.arccos |dot a b|) ∧
    |dot (slerp t a b) b| = |Real.cos ((1 - t) * Real.arccos |dot a b|)| := by
  set θ := Real.arccos |dot a b| with hθ
  have hpos : 0 < Real.sin θ := by
    apply Real.sin_pos_of_pos_of_lt_pi
    · exact Real.arccos_pos.2 (by linarith [epsilon_pos])
    · have := Real.arccos_le_pi_div_two.2 (abs_nonneg (dot a b))
      linarith [Real.pi_pos]
  have hcos : Real.cos θ = |dot a b| :=
    Real.cos_arccos (by linarith [abs_nonneg (dot a b)]) (by linarith [epsilon_pos])
  have hsc := Real.sin_sq_add_cos_sq θ
  obtain ⟨σ, hσ, hσ2⟩ : ∃ σ : ℝ, (∀ x : ℝ, (if dot a b < 0 then -x else x) = σ * x) ∧ σ * dot a b = |dot a b| ∧ σ * σ = 1 := by
    by_cases h : dot a b < 0
    · exact ⟨-1, fun x => by rw [if_pos h]; ring, by rw [abs_of_neg h]; ring, by ring⟩
    · exact ⟨1, fun x => by rw [if_neg h]; ring, by rw [abs_of_nonneg (by linarith)]; ring, by ring⟩
  set c0 := Real.sin ((1 - t) * θ) / Real.sin θ with hc0
  set c1 := Real.sin (t * θ) / Real.sin θ with hc1
  have hs : slerp t a b = ⟨c0 * a.w + σ * c1 * b.w, c0 * a.x + σ * c1 * b.x, c0 * a.y + σ * c1 * b.y,
      c0 * a.z + σ * c1 * b.z⟩ := by
    unfold slerp
    simp only [if_neg (not_le.2 hd), ge_iff_le, hσ]
    rfl
  have hexp : (1 - t) * θ = θ - t * θ := by ring
  have e1 : c0 + c1 * Real.cos θ = Real.cos (t * θ) := by
    rw [hc0, hc1, hexp, Real.sin_sub]
    field_simp
    ring
  have e2 : c0 * Real.cos θ + c1 = Real.cos ((1 - t) * θ) := by
    rw [hc0, hc1, hexp, Real.sin_sub, Real.cos_sub]
    field_simp
    linear_combination (-Real.sin (t * θ)) * hsc
  have e3 : c0 * Real.cos (t * θ) + c1 * Real.cos ((1 - t) * θ) = 1 := by
    have : Real.sin θ = Real.sin ((1 - t) * θ) * Real.cos (t * θ) + Real.sin (t * θ) * Real.cos ((1 - t) * θ) := by
      have h := Real.sin_add ((1 - t) * θ) (t * θ)
      rw [show (1 - t) * θ + t * θ = θ by ring] at h
      linarith
    rw [hc0, hc1]
    field_simp
    linarith
  unfold Quat.Unit at ha hb
  have da : dot (slerp t a b) a = c0 + c1 * (σ * dot a b) := by
    rw [hs]; unfold dot; dsimp only; linear_combination c0 * ha
  have db : dot (slerp t a b) b = c0 * dot a b + σ * c1 := by
    rw [hs]; unfold dot; dsimp only; linear_combination σ * c1 * hb
  have db' : σ * dot (slerp t a b) b = Real.cos ((1 - t) * θ) := by
    rw [db, ← e2, hcos, ← hσ2.1]; linear_combination c1 * hσ2.2
  refine ⟨?_, ?_, ?_⟩
  · unfold Quat.Unit
    have n : (slerp t a b).w ^ 2 + (slerp t a b).x ^ 2 + (slerp t a b).y ^ 2 + (slerp t a b).z ^ 2 =
        c0 * dot (slerp t a b) a + c1 * (σ * dot (slerp t a b) b) := by
      rw [hs]; unfold dot; dsimp only; ring
    rw [n, db', da, hσ2.1, ← hcos, e1, e3]
  · rw [da, hσ2.1, ← hcos, e1]
  · have : |σ| = 1 := by
      have h := hσ2.2
      rcases mul_self_eq_one_iff.1 h with h | h <;> rw [h] <;> simp
    rw [← db', abs_mul, this, one_mul]

end EigenRos

end Serpent
