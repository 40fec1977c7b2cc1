import Verif.Lemmas.Iso
import Verif.Lemmas.Quaternion
import Verif.Spec.Geometry
import Verif.Model.CloudTransform
import Mathlib.LinearAlgebra.CrossProduct
import Mathlib.LinearAlgebra.Matrix.PosDef
import Mathlib.Data.Matrix.ColumnRowPartitioned
import Mathlib.Algebra.Order.Star.Real

/-!
# C39, C40, C41, C43, C45: rigid transforms and covariances
-/

namespace Serpent

namespace EigenExt

open Matrix

variable {K : Type}

/-! ### C41 -/

/-- C41. The matrix of a vector multiplies like the cross product. -/
theorem C41_cross [CommRing K] (a b : Fin 3 → K) : skewSymmetric a *ᵥ b = a ⨯₃ b := by
  funext i
  rw [cross_apply]
  fin_cases i <;> simp [skewSymmetric, mulVec, dotProduct, Fin.sum_univ_three] <;> ring

/-- C41. The matrix of a vector is skew-symmetric. -/
theorem C41_skew [CommRing K] (a : Fin 3 → K) : (skewSymmetric a)ᵀ = -skewSymmetric a := by
  ext i j
  fin_cases i <;> fin_cases j <;> simp [skewSymmetric]

/-- C41. The vector is recovered from its matrix. -/
theorem C41_recover [Field K] [LinearOrder K] (a : Fin 3 → K) : fromSkewSymmetric (skewSymmetric a) = .ok a := by
  unfold fromSkewSymmetric skewSymmetric
  rw [if_neg (by simp)]
  refine congrArg _ ?_
  funext i
  fin_cases i <;> simp

/-- C41. Every skew-symmetric matrix is the matrix of the vector that is returned. -/
theorem C41_skew_argument [Field K] [LinearOrder K] [IsStrictOrderedRing K] (M : Matrix (Fin 3) (Fin 3) K) (h : Mᵀ = -M) :
    ∃ a, fromSkewSymmetric M = .ok a ∧ skewSymmetric a = M := by
  have e : ∀ i j, M j i = -M i j := fun i j => by have := congrFun (congrFun h i) j; simpa using this
  have d : ∀ i, M i i = 0 := fun i => by have := e i i; linarith
  have e1 := e 1 0; have e2 := e 0 2; have e3 := e 2 1
  refine ⟨![M 2 1, M 0 2, M 1 0], ?_, ?_⟩
  · unfold fromSkewSymmetric
    rw [if_neg (by simp [d])]
  · ext i j
    fin_cases i <;> fin_cases j <;> simp [skewSymmetric, d, e1, e2, e3]

/-- C41 (what the test does). The call throws exactly if a coefficient on the diagonal is positive. -/
theorem C41_throws_partial [Field K] [LinearOrder K] (M : Matrix (Fin 3) (Fin 3) K) :
    (fromSkewSymmetric M = .throws ↔ ∃ i, 0 < M i i) ∧ fromSkewSymmetric M ≠ .ub := by
  unfold fromSkewSymmetric
  by_cases h : max (max (M 0 0) (M 1 1)) (M 2 2) > 0
  · rw [if_pos h]
    refine ⟨⟨fun _ => ?_, fun _ => rfl⟩, by simp⟩
    simp only [gt_iff_lt, lt_max_iff] at h
    rcases h with (h | h) | h
    · exact ⟨_, h⟩
    · exact ⟨_, h⟩
    · exact ⟨_, h⟩
  · rw [if_neg h]
    refine ⟨⟨fun c => absurd c (by simp), fun hi => ?_⟩, by simp⟩
    obtain ⟨i, hi⟩ := hi
    refine absurd ?_ h
    simp only [gt_iff_lt, lt_max_iff]
    fin_cases i
    · exact .inl (.inl hi)
    · exact .inl (.inr hi)
    · exact .inr hi

/-- C41 fails: matrices that are not skew-symmetric are accepted. -/
theorem C41_fails_accepts : ∃ M : Matrix (Fin 3) (Fin 3) ℚ, Mᵀ ≠ -M ∧ fromSkewSymmetric M = .ok ![1, 1, 1] := by
  refine ⟨!![0, 1, 1; 1, 0, 1; 1, 1, 0], ?_, ?_⟩
  · intro h
    have := congrFun (congrFun h 0) 1
    norm_num at this
  · unfold fromSkewSymmetric
    rw [if_neg (by simp)]
    rfl

/-! ### C40 -/

/-- C40. The change of frame gives the same motion: it is the only transform that moves the points of the second frame as the
given transform moves the same points seen from the first frame. -/
theorem C40_same_motion [CommRing K] {X : Iso K} (hX : Rigid X) (T T' : Iso K) :
    T' = changeRelativeTransformFrame T X ↔ ∀ p, T'.apply (X.apply p) = X.apply (T.apply p) := by
  unfold changeRelativeTransformFrame changeRelativeTransformFrame3
  constructor
  · rintro rfl p
    rw [← Iso.apply_mul, Iso.mul_assoc, hX.inv_mul, Iso.mul_one, Iso.apply_mul]
  · intro h
    refine Iso.ext_apply fun p => ?_
    have := h (X⁻¹.apply p)
    rw [← Iso.apply_mul X, hX.mul_inv, Iso.apply_one] at this
    rw [this, Iso.apply_mul, Iso.apply_mul]

/-- C40. Identity, products and inverses are kept, and the result is rigid. -/
theorem C40_homomorphism [CommRing K] {X : Iso K} (hX : Rigid X) :
    changeRelativeTransformFrame 1 X = 1 ∧
    (∀ S T, changeRelativeTransformFrame (S * T) X =
      changeRelativeTransformFrame S X * changeRelativeTransformFrame T X) ∧
    (∀ T, Rigid T → changeRelativeTransformFrame T⁻¹ X = (changeRelativeTransformFrame T X)⁻¹) ∧
    (∀ T, Rigid T → Rigid (changeRelativeTransformFrame T X)) := by
  unfold changeRelativeTransformFrame changeRelativeTransformFrame3
  refine ⟨by rw [Iso.mul_one, hX.mul_inv], fun S T => ?_, fun T hT => ?_, fun T hT => (hX.mul hT).mul hX.inv⟩
  · simp only [Iso.mul_assoc]
    rw [← Iso.mul_assoc X⁻¹ X, hX.inv_mul, Iso.one_mul]
  · rw [(hX.mul hT).mul_inv_rev hX.inv, hX.mul_inv_rev hT, hX.inv_inv, Iso.mul_assoc]

/-- C40. Changing the frame and changing back restores the transform; two changes are one change. -/
theorem C40_composition [CommRing K] {X Y : Iso K} (hX : Rigid X) (hY : Rigid Y) (T : Iso K) :
    changeRelativeTransformFrame (changeRelativeTransformFrame T X) X⁻¹ = T ∧
    changeRelativeTransformFrame (changeRelativeTransformFrame T X) Y = changeRelativeTransformFrame T (Y * X) := by
  unfold changeRelativeTransformFrame changeRelativeTransformFrame3
  constructor
  · rw [hX.inv_inv, ← Iso.mul_assoc, ← Iso.mul_assoc, hX.inv_mul, Iso.one_mul, Iso.mul_assoc, hX.inv_mul, Iso.mul_one]
  · rw [hY.mul_inv_rev hX]
    simp only [Iso.mul_assoc]

/-- C40. The overload with three arguments, given the inverse, is the same. -/
theorem C40_overload [CommRing K] {X Xinv : Iso K} (hX : Rigid X) (h : Xinv * X = 1) (T : Iso K) :
    changeRelativeTransformFrame3 T X Xinv = changeRelativeTransformFrame T X := by
  rw [hX.eq_inv h]
  rfl

/-- C40. The relative transform of two poses is the only transform that takes the first pose to the second. -/
theorem C40_relative [CommRing K] {A : Iso K} (hA : Rigid A) (B T : Iso K) :
    A * T = B ↔ T = relativeTransform A B := by
  unfold relativeTransform
  constructor
  · rintro rfl
    rw [← Iso.mul_assoc, hA.inv_mul, Iso.one_mul]
  · rintro rfl
    rw [← Iso.mul_assoc, hA.mul_inv, Iso.one_mul]

/-- A rotation by 90 degrees about z with a translation. -/
def quarter : Iso ℝ := ⟨!![0, -1, 0; 1, 0, 0; 0, 0, 1], ![1, 2, 3]⟩

theorem quarter_rigid : Rigid quarter := by
  constructor
  · ext i j
    fin_cases i <;> fin_cases j <;> simp [quarter, Matrix.mul_apply, Fin.sum_univ_three]
  · simp [quarter, det_fin_three]

/-- A case with a rigid transform that commutes with nothing interesting: the frame change is not the identity. -/
example : changeRelativeTransformFrame (⟨1, ![1, 0, 0]⟩ : Iso ℝ) quarter ≠ ⟨1, ![1, 0, 0]⟩ := by
  intro h
  have h1 := (C40_same_motion quarter_rigid _ _).1 h.symm 0
  have := congrFun h1 0
  simp [Iso.apply, quarter] at this

/-! ### C39 -/

/-- C39. The adjoint of a product is the product of the adjoints, and inverses go to inverses. -/
theorem C39_adjoint [CommRing K] {S T : Iso K} (hS : Rigid S) (hT : Rigid T) :
    transformAdjoint (S * T) = transformAdjoint S * transformAdjoint T ∧
    transformAdjoint (1 : Iso K) = 1 ∧
    transformAdjoint T⁻¹ * transformAdjoint T = 1 ∧ transformAdjoint T * transformAdjoint T⁻¹ = 1 :=
  ⟨hS.adjoint_mul T, adjoint_one, hT.adjoint_inv, hT.adjoint_inv'⟩

/-- C39. What the adjoint does: it takes the twist of a moving body seen from one frame to the twist seen from the other.
The field of velocities `p ↦ w × p + v` of a twist `(w, v)` is carried over by the transform. -/
theorem C39_twist [CommRing K] {T : Iso K} (hT : Rigid T) (w v p : Fin 3 → K) :
    velocityAt (transformAdjoint T *ᵥ Sum.elim w v) (T.apply p) = T.R *ᵥ velocityAt (Sum.elim w v) p := by
  have hc : ∀ a b : Fin 3 → K, a ⨯₃ b = skewSymmetric a *ᵥ b := fun a b => (C41_cross a b).symm
  unfold transformAdjoint velocityAt
  rw [fromBlocks_mulVec]
  simp only [Sum.elim_comp_inl, Sum.elim_comp_inr, zero_mulVec, add_zero]
  rw [hc, hc, Iso.apply, mulVec_add, mulVec_mulVec, hT.skew, mulVec_add, mulVec_mulVec, ← mulVec_mulVec w,
    ← hc (T.R *ᵥ w) T.t, ← hc T.t (T.R *ᵥ w), ← cross_anticomm T.t (T.R *ᵥ w)]
  abel

/-- C39. Symmetric matrices stay symmetric. -/
theorem C39_symmetric [CommRing K] (T : Iso K) (C : Mat6 K) (h : C.IsSymm) : (changeCovarianceFrame C T).IsSymm := by
  unfold changeCovarianceFrame changeCovarianceFrameAdj IsSymm
  rw [transpose_mul, transpose_mul, transpose_transpose, h.eq, Matrix.mul_assoc]

/-- C39. Positive semidefinite matrices stay positive semidefinite. -/
theorem C39_semidefinite (T : Iso ℝ) (C : Mat6 ℝ) (h : C.PosSemidef) : (changeCovarianceFrame C T).PosSemidef := by
  have := h.mul_mul_conjTranspose_same (transformAdjoint T)
  rwa [conjTranspose_eq_transpose_of_trivial] at this

/-- C39. Positive definite matrices stay positive definite. -/
theorem C39_definite {T : Iso ℝ} (hT : Rigid T) (C : Mat6 ℝ) (h : C.PosDef) : (changeCovarianceFrame C T).PosDef := by
  have := h.mul_mul_conjTranspose_same (B := transformAdjoint T) (by
    intro a b e
    have := congrArg (· ᵥ* transformAdjoint T⁻¹) e
    simpa [vecMul_vecMul, hT.adjoint_inv'] using this)
  rwa [conjTranspose_eq_transpose_of_trivial] at this

/-- C39. Changing from A to B and from B to C is changing from A to C; changing back restores the matrix. -/
theorem C39_composition [CommRing K] {S T : Iso K} (hS : Rigid S) (hT : Rigid T) (C : Mat6 K) :
    changeCovarianceFrame (changeCovarianceFrame C T) S = changeCovarianceFrame C (S * T) ∧
    changeCovarianceFrame (changeCovarianceFrame C T) T⁻¹ = C ∧ changeCovarianceFrame C 1 = C := by
  have comp : ∀ {S T : Iso K}, Rigid S → changeCovarianceFrame (changeCovarianceFrame C T) S =
      changeCovarianceFrame C (S * T) := by
    intro S T hS
    unfold changeCovarianceFrame changeCovarianceFrameAdj
    rw [hS.adjoint_mul, transpose_mul]
    simp only [Matrix.mul_assoc]
  have one : changeCovarianceFrame C 1 = C := by
    unfold changeCovarianceFrame changeCovarianceFrameAdj
    rw [adjoint_one, transpose_one, Matrix.mul_one, Matrix.one_mul]
  exact ⟨comp hS, by rw [comp hT.inv, hT.inv_mul, one], one⟩

/-- C39. Composition of covariances: if the covariance of the pair (previous pose, relative pose) is positive semidefinite,
so is the covariance of the composed pose. -/
theorem C39_compose_semidefinite (P Q X : Mat6 ℝ) (T : Iso ℝ) (h : (fromBlocks P Xᵀ X Q).PosSemidef) :
    (composeTransformCovariance P Q T X).PosSemidef := by
  have := h.mul_mul_conjTranspose_same (fromCols (transformAdjoint T⁻¹) 1)
  rw [conjTranspose_eq_transpose_of_trivial, transpose_fromCols, fromCols_mul_fromBlocks, fromCols_mul_fromRows] at this
  refine cast (congrArg _ ?_) this
  unfold composeTransformCovariance
  simp only [transpose_one, Matrix.mul_one, Matrix.one_mul, Matrix.add_mul]
  abel

/-- C39. Composition of covariances of independent relative poses does not depend on the grouping. -/
theorem C39_compose_assoc [CommRing K] {S T : Iso K} (hS : Rigid S) (hT : Rigid T) (P Q R : Mat6 K) :
    composeTransformCovariance (composeTransformCovariance P Q S 0) R T 0 =
      composeTransformCovariance P (composeTransformCovariance Q R T 0) (S * T) 0 := by
  unfold composeTransformCovariance
  rw [hS.mul_inv_rev hT, hT.inv.adjoint_mul]
  simp only [transpose_mul, Matrix.zero_mul, Matrix.mul_zero, transpose_zero, add_zero, Matrix.mul_add, Matrix.add_mul,
    Matrix.mul_assoc, add_assoc]

/-- A case: the covariance of a motion along x of a body seen from a frame turned by 90 degrees. -/
example : (1 : Mat6 ℝ).PosDef ∧ Rigid quarter ∧ changeCovarianceFrame (1 : Mat6 ℝ) quarter ≠ 1 := by
  refine ⟨PosDef.one, quarter_rigid, fun h => ?_⟩
  have := congrFun (congrFun h (.inr 0)) (.inl 2)
  simp [changeCovarianceFrame, changeCovarianceFrameAdj, transformAdjoint, quarter, skewSymmetric, fromBlocks_transpose,
    Matrix.mul_apply, Fin.sum_univ_three] at this

/-- A case: independent unit covariances. -/
example : (fromBlocks (1 : Mat6 ℝ) (0 : Mat6 ℝ)ᵀ 0 1).PosSemidef := by
  rw [transpose_zero, fromBlocks_one]
  exact PosDef.one.posSemidef

/-! ### C45 -/

/-- C45. Symmetry, positive semidefiniteness, trace and determinant are kept; two rotations are one. -/
theorem C45_rotation (R S C : Matrix (Fin 3) (Fin 3) ℝ) (hR : Rᵀ * R = 1) :
    (C.IsSymm → (rotatePointCovariance C R).IsSymm) ∧
    (C.PosSemidef → (rotatePointCovariance C R).PosSemidef) ∧
    (rotatePointCovariance C R).trace = C.trace ∧
    (rotatePointCovariance C R).det = C.det ∧
    rotatePointCovariance (rotatePointCovariance C R) S = rotatePointCovariance C (S * R) ∧
    rotatePointCovariance (rotatePointCovariance C R) Rᵀ = C := by
  have comp : ∀ S, rotatePointCovariance (rotatePointCovariance C R) S = rotatePointCovariance C (S * R) := by
    intro S
    unfold rotatePointCovariance
    rw [transpose_mul]
    simp only [Matrix.mul_assoc]
  refine ⟨fun h => ?_, fun h => ?_, ?_, ?_, comp S, ?_⟩
  · unfold rotatePointCovariance IsSymm
    rw [transpose_mul, transpose_mul, transpose_transpose, h.eq, Matrix.mul_assoc]
  · have := h.mul_mul_conjTranspose_same R
    rwa [conjTranspose_eq_transpose_of_trivial] at this
  · unfold rotatePointCovariance
    rw [trace_mul_comm, ← Matrix.mul_assoc, hR, Matrix.one_mul]
  · have hd : Rᵀ.det * R.det = 1 := by rw [← det_mul, hR, det_one]
    unfold rotatePointCovariance
    rw [det_mul, det_mul, mul_right_comm, mul_comm R.det, hd, one_mul]
  · rw [comp, hR]
    unfold rotatePointCovariance
    simp

/-- C45. The quadratic form: the variance along a rotated direction is the variance along the direction before. -/
theorem C45_variance (R C : Matrix (Fin 3) (Fin 3) ℝ) (hR : Rᵀ * R = 1) (d : Fin 3 → ℝ) :
    (R *ᵥ d) ⬝ᵥ (rotatePointCovariance C R *ᵥ (R *ᵥ d)) = d ⬝ᵥ (C *ᵥ d) := by
  unfold rotatePointCovariance
  rw [mulVec_mulVec, Matrix.mul_assoc, hR, Matrix.mul_one, ← mulVec_mulVec, dotProduct_mulVec, vecMul_mulVec, hR,
    vecMul_one]

open CloudTransform in
/-- C45. The packed representation holds every symmetric matrix, and nothing is lost by writing a rotated covariance to it. -/
theorem C45_packed (c : Packed ℝ) (R M : Matrix (Fin 3) (Fin 3) ℝ) :
    Packed.ofMatrix c.getMatrix = c ∧ (M.IsSymm ↔ (Packed.ofMatrix M).getMatrix = M) ∧
    (Packed.ofMatrix (rotatePointCovariance c.getMatrix R)).getMatrix = rotatePointCovariance c.getMatrix R := by
  have symm : ∀ c : Packed ℝ, c.getMatrix.IsSymm := by
    intro c
    ext i j
    fin_cases i <;> fin_cases j <;> rfl
  have key : ∀ M : Matrix (Fin 3) (Fin 3) ℝ, M.IsSymm → (Packed.ofMatrix M).getMatrix = M := by
    intro M h
    have e : ∀ i j, M j i = M i j := fun i j => h.apply i j
    ext i j
    fin_cases i <;> fin_cases j <;> simp [Packed.ofMatrix, Packed.getMatrix, e 0 1, e 0 2, e 1 2]
  refine ⟨rfl, ⟨key M, fun h => h ▸ symm _⟩, key _ ?_⟩
  unfold rotatePointCovariance IsSymm
  rw [transpose_mul, transpose_mul, transpose_transpose, (symm c).eq, Matrix.mul_assoc]

example : quarter.Rᵀ * quarter.R = 1 := quarter_rigid.orthogonal

/-! ### C43 -/

/-- C43. The call throws exactly if the duration is not positive. -/
theorem C43_throws_iff (A B : Iso ℝ) (dt : ℝ) :
    (linearRatesEigen A B dt = .throws ↔ dt ≤ 0) ∧ linearRatesEigen A B dt ≠ .ub := by
  unfold linearRatesEigen linearRates
  split <;> simp_all

/-- C43. Moving from the first pose with the returned rates for the duration `dt` leads to the second pose: rotating by the
rotation vector `dt * angular` and translating by `dt * linear`, both in the frame of the first pose. -/
theorem C43_reaches {A B : Iso ℝ} (hA : Rigid A) (hB : Rigid B) (dt : ℝ) (hdt : 0 < dt) :
    ∃ rates, linearRatesEigen A B dt = .ok rates ∧
      A.R * expRotation (dt • (rates ∘ Sum.inl)) = B.R ∧ A.apply (dt • (rates ∘ Sum.inr)) = B.t := by
  have hAB := hA.inv.mul hB
  have hrot : expRotation (rotVecOfMatrix (A.Rᵀ * B.R)) = A.Rᵀ * B.R := rotVecOfMatrix_spec ⟨hAB.orthogonal, hAB.det⟩
  refine ⟨_, if_neg (not_le.2 hdt), ?_, ?_⟩
  · have : dt • ((Sum.elim (fun i => rotVecOfMatrix (relativeTransform A B).R i / dt)
        (fun i => (relativeTransform A B).t i / dt)) ∘ Sum.inl) = rotVecOfMatrix (A.Rᵀ * B.R) := by
      funext i
      simp only [Pi.smul_apply, Function.comp, Sum.elim_inl, smul_eq_mul]
      rw [mul_div_cancel₀ _ hdt.ne']
      rfl
    rw [this, hrot, ← Matrix.mul_assoc, hA.orthogonal', Matrix.one_mul]
  · have : dt • ((Sum.elim (fun i => rotVecOfMatrix (relativeTransform A B).R i / dt)
        (fun i => (relativeTransform A B).t i / dt)) ∘ Sum.inr) = (relativeTransform A B).t := by
      funext i
      simp only [Pi.smul_apply, Function.comp, Sum.elim_inr, smul_eq_mul]
      rw [mul_div_cancel₀ _ hdt.ne']
    rw [this]
    have h := (C40_relative hA B _).2 rfl
    exact congrArg Iso.t h

/-- C43. Doing the same motion `k` times slower divides the rates by `k`. -/
theorem C43_homogeneous (A B : Iso ℝ) (dt k : ℝ) (hdt : 0 < dt) (hk : 0 < k) :
    ∃ rates, linearRatesEigen A B dt = .ok rates ∧ linearRatesEigen A B (k * dt) = .ok (fun i => rates i / k) := by
  refine ⟨_, if_neg (not_le.2 hdt), ?_⟩
  unfold linearRatesEigen linearRates
  rw [if_neg (not_le.2 (mul_pos hk hdt))]
  refine congrArg _ ?_
  funext i
  cases i with
  | inl i => simp only [Sum.elim_inl]; rw [div_div, mul_comm]
  | inr i => simp only [Sum.elim_inr]; rw [div_div, mul_comm]

/-- A case: from the origin to a quarter turn about z. -/
example : Rigid (1 : Iso ℝ) ∧ Rigid quarter ∧ quarter.R ≠ 1 :=
  ⟨Rigid.one, quarter_rigid, fun h => by have := congrFun (congrFun h 0) 0; simp [quarter] at this⟩

/-- The rotation of the rotation vector of a quarter turn about z. -/
example : expRotation (![0, 0, Real.pi / 2]) = (1 : Iso ℝ).Rᵀ * quarter.R := by
  have h : Real.sqrt ((Real.pi / 2) ^ 2) = Real.pi / 2 := Real.sqrt_sq (by positivity)
  have hp : Real.pi / 2 ≠ 0 := by positivity
  unfold expRotation
  simp only [Fin.sum_univ_three]
  ext i j
  fin_cases i <;> fin_cases j <;> simp [h, hp, quarter, Iso.one_R, rodrigues, skewOf]

/-- C29. Interpolation of matrices: the two matrices at 0 and 1, exact for matrices that move at a constant rate, the same from both
ends, and every entry between the two for parameters from 0 to 1. -/
theorem C29_matrices {m n : Nat} (A B : Matrix (Fin m) (Fin n) ℝ) (s : ℝ) :
    linearInterpolate A B 0 = A ∧ linearInterpolate A B 1 = B ∧
    (∀ C D : Matrix (Fin m) (Fin n) ℝ, ∀ u v : ℝ,
      linearInterpolate (C + u • D) (C + v • D) s = C + (u + s * (v - u)) • D) ∧
    linearInterpolate B A (1 - s) = linearInterpolate A B s ∧
    (0 ≤ s → s ≤ 1 → ∀ i j, min (A i j) (B i j) ≤ linearInterpolate A B s i j ∧
      linearInterpolate A B s i j ≤ max (A i j) (B i j)) := by
  refine ⟨by simp [linearInterpolate], by simp [linearInterpolate], ?_, ?_, ?_⟩
  · intro C D u v
    ext i j
    simp only [linearInterpolate, Matrix.add_apply, Matrix.smul_apply, smul_eq_mul]
    ring
  · ext i j
    simp only [linearInterpolate, Matrix.add_apply, Matrix.smul_apply, smul_eq_mul]
    ring
  · intro h0 h1 i j
    have e : linearInterpolate A B s i j = (1 - s) * A i j + s * B i j := rfl
    have h2 : 0 ≤ 1 - s := by linarith
    rw [e]
    constructor
    · have := mul_le_mul_of_nonneg_left (min_le_left (A i j) (B i j)) h2
      have := mul_le_mul_of_nonneg_left (min_le_right (A i j) (B i j)) h0
      nlinarith
    · have := mul_le_mul_of_nonneg_left (le_max_left (A i j) (B i j)) h2
      have := mul_le_mul_of_nonneg_left (le_max_right (A i j) (B i j)) h0
      nlinarith

/-- Half way between two vectors. -/
example : linearInterpolate !![(1 : ℝ); 3] !![3; -1] (1 / 2) = !![2; 1] := by
  ext i j
  fin_cases i <;> fin_cases j <;> norm_num [linearInterpolate]

end EigenExt

end Serpent
