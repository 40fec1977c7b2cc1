import Verif.Model.EigenExt
import Mathlib.LinearAlgebra.Matrix.Adjugate
import Mathlib.LinearAlgebra.Matrix.NonsingularInverse
import Mathlib.Tactic.LinearCombination

/-! # Rigid transforms form a group; the adjoint is a homomorphism -/

namespace Serpent

namespace EigenExt

open Matrix

variable {K : Type} [CommRing K]

/-- Rigid transforms: the linear part is a rotation. -/
structure Rigid (T : Iso K) : Prop where
  orthogonal : T.Rᵀ * T.R = 1
  det : T.R.det = 1

theorem Iso.mul_R (A B : Iso K) : (A * B).R = A.R * B.R := rfl
theorem Iso.mul_t (A B : Iso K) : (A * B).t = A.R *ᵥ B.t + A.t := rfl
theorem Iso.inv_R (A : Iso K) : A⁻¹.R = A.Rᵀ := rfl
theorem Iso.inv_t (A : Iso K) : A⁻¹.t = -(A.Rᵀ *ᵥ A.t) := rfl
theorem Iso.one_R : (1 : Iso K).R = 1 := rfl
theorem Iso.one_t : (1 : Iso K).t = 0 := rfl

theorem Iso.mul_assoc (A B C : Iso K) : A * B * C = A * (B * C) := by
  ext1
  · simp only [Iso.mul_R, Matrix.mul_assoc]
  · simp only [Iso.mul_R, Iso.mul_t, mulVec_add, mulVec_mulVec, add_assoc]

theorem Iso.one_mul (A : Iso K) : 1 * A = A := by
  ext1
  · simp [Iso.mul_R, Iso.one_R]
  · simp [Iso.mul_t, Iso.one_R, Iso.one_t]

theorem Iso.mul_one (A : Iso K) : A * 1 = A := by
  ext1
  · simp [Iso.mul_R, Iso.one_R]
  · simp [Iso.mul_t, Iso.one_t]

theorem Iso.apply_mul (A B : Iso K) (p : Fin 3 → K) : (A * B).apply p = A.apply (B.apply p) := by
  simp only [Iso.apply, Iso.mul_R, Iso.mul_t, mulVec_add, mulVec_mulVec, add_assoc]

theorem Iso.apply_one (p : Fin 3 → K) : (1 : Iso K).apply p = p := by
  simp [Iso.apply, Iso.one_R, Iso.one_t]

/-- A transform is determined by its action on points. -/
theorem Iso.ext_apply {A B : Iso K} (h : ∀ p, A.apply p = B.apply p) : A = B := by
  have ht : A.t = B.t := by simpa [Iso.apply] using h 0
  ext1
  · ext i j
    have := congrFun (h (Pi.single j 1)) i
    simpa [Iso.apply, ht] using this
  · exact ht

theorem Rigid.orthogonal' {A : Iso K} (h : Rigid A) : A.R * A.Rᵀ = 1 := mul_eq_one_comm.1 h.orthogonal

theorem Rigid.inv_mul {A : Iso K} (h : Rigid A) : A⁻¹ * A = 1 := by
  ext1
  · rw [Iso.mul_R, Iso.inv_R, h.orthogonal]; rfl
  · rw [Iso.mul_t, Iso.inv_R, Iso.inv_t, add_neg_cancel]; rfl

theorem Rigid.mul_inv {A : Iso K} (h : Rigid A) : A * A⁻¹ = 1 := by
  ext1
  · rw [Iso.mul_R, Iso.inv_R, h.orthogonal']; rfl
  · rw [Iso.mul_t, Iso.inv_t, mulVec_neg, mulVec_mulVec, h.orthogonal', one_mulVec, neg_add_cancel]; rfl

theorem Rigid.mul {A B : Iso K} (h : Rigid A) (h' : Rigid B) : Rigid (A * B) := by
  constructor
  · rw [Iso.mul_R, transpose_mul, Matrix.mul_assoc, ← Matrix.mul_assoc A.Rᵀ, h.orthogonal, Matrix.one_mul, h'.orthogonal]
  · rw [Iso.mul_R, det_mul, h.det, h'.det, _root_.mul_one]

theorem Rigid.inv {A : Iso K} (h : Rigid A) : Rigid A⁻¹ := by
  constructor
  · rw [Iso.inv_R, transpose_transpose, h.orthogonal']
  · rw [Iso.inv_R, det_transpose, h.det]

theorem Rigid.one : Rigid (1 : Iso K) := ⟨by rw [Iso.one_R]; simp, by rw [Iso.one_R]; simp⟩

/-- Left inverses are unique. -/
theorem Rigid.eq_inv {A B : Iso K} (h : Rigid A) (e : B * A = 1) : B = A⁻¹ := by
  rw [← Iso.mul_one B, ← h.mul_inv, ← Iso.mul_assoc, e, Iso.one_mul]

theorem Rigid.inv_inv {A : Iso K} (h : Rigid A) : A⁻¹⁻¹ = A := (h.inv.eq_inv h.mul_inv).symm

theorem Rigid.mul_inv_rev {A B : Iso K} (h : Rigid A) (h' : Rigid B) : (A * B)⁻¹ = B⁻¹ * A⁻¹ := by
  refine ((h.mul h').eq_inv ?_).symm
  rw [Iso.mul_assoc, ← Iso.mul_assoc A⁻¹, h.inv_mul, Iso.one_mul, h'.inv_mul]

theorem Iso.one_inv : (1 : Iso K)⁻¹ = 1 := by
  rw [← Iso.mul_one (1 : Iso K)⁻¹, Rigid.one.inv_mul]

/-- The cofactors of a rotation are its coefficients. -/
theorem Rigid.adjugate {A : Iso K} (h : Rigid A) : A.R.adjugate = A.Rᵀ := by
  have e : A.R * A.R.adjugate = 1 := by rw [mul_adjugate, h.det, one_smul]
  calc A.R.adjugate = A.Rᵀ * A.R * A.R.adjugate := by rw [h.orthogonal, Matrix.one_mul]
    _ = A.Rᵀ := by rw [Matrix.mul_assoc, e, Matrix.mul_one]

/-- The matrix of the rotated vector. -/
theorem Rigid.skew {A : Iso K} (h : Rigid A) (v : Fin 3 → K) :
    skewSymmetric (A.R *ᵥ v) * A.R = A.R * skewSymmetric v := by
  have e : ∀ i j, A.R.adjugate i j = A.R j i := fun i j => by rw [h.adjugate, transpose_apply]
  have e0 := e 0 0; have e1 := e 0 1; have e2 := e 0 2
  have e3 := e 1 0; have e4 := e 1 1; have e5 := e 1 2
  have e6 := e 2 0; have e7 := e 2 1; have e8 := e 2 2
  rw [adjugate_fin_three] at e0 e1 e2 e3 e4 e5 e6 e7 e8
  simp at e0 e1 e2 e3 e4 e5 e6 e7 e8
  ext i j
  fin_cases i <;> fin_cases j <;>
    simp [skewSymmetric, Matrix.mul_apply, mulVec, dotProduct, Fin.sum_univ_three]
  · linear_combination v 2 * e3 - v 1 * e6
  · linear_combination v 0 * e6 - v 2 * e0
  · linear_combination v 1 * e0 - v 0 * e3
  · linear_combination v 2 * e4 - v 1 * e7
  · linear_combination v 0 * e7 - v 2 * e1
  · linear_combination v 1 * e1 - v 0 * e4
  · linear_combination v 2 * e5 - v 1 * e8
  · linear_combination v 0 * e8 - v 2 * e2
  · linear_combination v 1 * e2 - v 0 * e5

theorem skewSymmetric_add (a b : Fin 3 → K) : skewSymmetric (a + b) = skewSymmetric a + skewSymmetric b := by
  ext i j
  fin_cases i <;> fin_cases j <;> simp [skewSymmetric, add_comm]

theorem Rigid.adjoint_mul {A : Iso K} (h : Rigid A) (B : Iso K) :
    transformAdjoint (A * B) = transformAdjoint A * transformAdjoint B := by
  unfold transformAdjoint
  rw [fromBlocks_multiply, Iso.mul_R, Iso.mul_t, skewSymmetric_add, Matrix.add_mul, ← Matrix.mul_assoc, h.skew]
  simp [Matrix.mul_assoc, add_comm]

theorem adjoint_one : transformAdjoint (1 : Iso K) = 1 := by
  unfold transformAdjoint
  rw [Iso.one_R, Iso.one_t, ← fromBlocks_one]
  congr 1
  ext i j
  fin_cases i <;> fin_cases j <;> simp [skewSymmetric]

theorem Rigid.adjoint_inv {A : Iso K} (h : Rigid A) : transformAdjoint A⁻¹ * transformAdjoint A = 1 := by
  rw [← h.inv.adjoint_mul, h.inv_mul, adjoint_one]

theorem Rigid.adjoint_inv' {A : Iso K} (h : Rigid A) : transformAdjoint A * transformAdjoint A⁻¹ = 1 := by
  rw [← h.adjoint_mul, h.mul_inv, adjoint_one]

end EigenExt

end Serpent
