import Verif.Model.RegistrationCovariance
import Verif.Lemmas.Derivatives
import Mathlib.Tactic.Ring
import Mathlib.Tactic.FinCases

/-!
# The derivatives of the linearised ICP models (C65)
-/

namespace Serpent

namespace Icp

open Matrix Function EigenExt Lidar

theorem cross0 {K : Type} [CommRing K] (a b : Fin 3 → K) : crossProduct a b 0 = a 1 * b 2 - a 2 * b 1 := by
  simp [crossProduct]
theorem cross1 {K : Type} [CommRing K] (a b : Fin 3 → K) : crossProduct a b 1 = a 2 * b 0 - a 0 * b 2 := by
  simp [crossProduct]
theorem cross2 {K : Type} [CommRing K] (a b : Fin 3 → K) : crossProduct a b 2 = a 0 * b 1 - a 1 * b 0 := by
  simp [crossProduct]

theorem residual_apply (w : Var → ℝ) (k : Fin 3) :
    linearResidual w k = pOf w k + crossProduct (rOf w) (pOf w) k + tOf w k - qOf w k := rfl

/-- The partial derivatives of the linear residual. -/
def linD (k : Fin 3) (j : Var) (y : Var → ℝ) : ℝ :=
  match j with
  | .inl (.inl a) => crossProduct (Pi.single a 1) (pOf y) k
  | .inl (.inr a) => (Pi.single a 1 : Fin 3 → ℝ) k
  | .inr (.inl a) => ((Pi.single a 1 : Fin 3 → ℝ) + crossProduct (rOf y) (Pi.single a 1)) k
  | .inr (.inr a) => -(Pi.single a 1 : Fin 3 → ℝ) k

/-- The second partial derivatives of the linear residual. -/
def linD2 (k : Fin 3) (i j : Var) : ℝ :=
  match i, j with
  | .inl (.inl a), .inr (.inl b) => crossProduct (Pi.single a 1) (Pi.single b 1 : Fin 3 → ℝ) k
  | .inr (.inl b), .inl (.inl a) => crossProduct (Pi.single a 1) (Pi.single b 1 : Fin 3 → ℝ) k
  | _, _ => 0

theorem residual_affine (k : Fin 3) (j : Var) (y : Var → ℝ) (s : ℝ) :
    linearResidual (update y j s) k = linearResidual y k + (s - y j) * linD k j y := by
  rcases j with (a | a) | (a | a) <;> fin_cases a <;> fin_cases k <;>
    simp [residual_apply, linD, pOf, rOf, tOf, qOf, cross0, cross1, cross2] <;> ring

theorem linD_affine (k : Fin 3) (i j : Var) (y : Var → ℝ) (s : ℝ) :
    linD k j (update y i s) = linD k j y + (s - y i) * linD2 k i j := by
  rcases i with (a | a) | (a | a) <;> rcases j with (b | b) | (b | b) <;> fin_cases a <;> fin_cases b <;> fin_cases k <;>
    simp [linD, linD2, pOf, rOf, cross0, cross1, cross2] <;> ring

theorem residual_deriv (k : Fin 3) (j : Var) (y : Var → ℝ) :
    HasDerivAt (fun s => linearResidual (update y j s) k) (linD k j y) (y j) :=
  hasDerivAt_affine fun s => by rw [update_eq_self]; exact residual_affine k j y s

theorem linD_deriv (k : Fin 3) (i j : Var) (y : Var → ℝ) :
    HasDerivAt (fun s => linD k j (update y i s)) (linD2 k i j) (y i) :=
  hasDerivAt_affine fun s => by rw [update_eq_self]; exact linD_affine k i j y s

theorem pointLin_second (i j : Var) (w : Var → ℝ) :
    IsSecondPartial pointLinCost i j w (2 * ∑ k, (linD k i w * linD k j w + linearResidual w k * linD2 k i j)) := by
  have : pointLinCost = fun w => ∑ k, linearResidual w k ^ 2 := by
    funext w
    unfold pointLinCost dotProduct
    exact Finset.sum_congr rfl fun k _ => (sq _).symm
  rw [this]
  exact isSecondPartial_sum_sq (f := fun k w => linearResidual w k) (D := fun k y => linD k j y)
    (Filter.Eventually.of_forall fun y k => residual_deriv k j y) (fun k => residual_deriv k i w) (fun k => linD_deriv k i j w)

theorem planeLin_second (n : Fin 3 → ℝ) (i j : Var) (w : Var → ℝ) :
    IsSecondPartial (planeLinCost n) i j w
      (2 * ((∑ k, n k * linD k i w) * (∑ k, n k * linD k j w) + (n ⬝ᵥ linearResidual w) * ∑ k, n k * linD2 k i j)) := by
  have : planeLinCost n = fun w => ∑ _ : Unit, (n ⬝ᵥ linearResidual w) ^ 2 := by
    funext w
    rw [Fintype.sum_unique]
    rfl
  rw [this]
  have h := isSecondPartial_sum_sq (ι := Unit) (f := fun _ w => n ⬝ᵥ linearResidual w) (D := fun _ y => ∑ k, n k * linD k j y)
    (i := i) (j := j) (x := w) (Di := fun _ => ∑ k, n k * linD k i w) (D2 := fun _ => ∑ k, n k * linD2 k i j)
    (Filter.Eventually.of_forall fun y _ => HasDerivAt.fun_sum fun k _ => (residual_deriv k j y).const_mul (n k))
    (fun _ => HasDerivAt.fun_sum fun k _ => (residual_deriv k i w).const_mul (n k))
    (fun _ => HasDerivAt.fun_sum fun k _ => (linD_deriv k i j w).const_mul (n k))
  rwa [Fintype.sum_unique] at h

/-- C65. The matrices of the linearised point-to-point model, at every pose and every pair of points: twice `half_d2F_dx2` is the
matrix of second derivatives of the squared residual by the pose, and twice `half_d2F_dzdx` that of the mixed derivatives by pose and
measured points. -/
theorem C65_point_to_point (r t p q : Fin 3 → ℝ) (i j : Fin 3 ⊕ Fin 3) :
    IsSecondPartial pointLinCost (.inl i) (.inl j) (vars r t p q) (2 * pointLinDx2 p i j) ∧
    IsSecondPartial pointLinCost (.inl i) (.inr j) (vars r t p q) (2 * pointLinDzdx r t p q i j) := by
  constructor
  · convert pointLin_second (.inl i) (.inl j) (vars r t p q) using 2
    rcases i with i | i <;> rcases j with j | j <;> fin_cases i <;> fin_cases j <;>
      simp [pointLinDx2, skewSymmetric, linD, linD2, Fin.sum_univ_three, cross0, cross1, cross2, pOf, vars, Matrix.mul_apply] <;> ring
  · convert pointLin_second (.inl i) (.inr j) (vars r t p q) using 2
    rcases i with i | i <;> rcases j with j | j <;> fin_cases i <;> fin_cases j <;>
      simp [pointLinDzdx, skewSymmetric, linD, linD2, Fin.sum_univ_three, cross0, cross1, cross2, residual_apply, pOf, rOf, tOf, qOf, vars,
        Matrix.mul_apply] <;> ring

/-- C65. The matrices of the linearised point-to-plane model, in the same way. -/
theorem C65_point_to_plane (r t p q n : Fin 3 → ℝ) (i j : Fin 3 ⊕ Fin 3) :
    IsSecondPartial (planeLinCost n) (.inl i) (.inl j) (vars r t p q) (2 * planeLinDx2 p n i j) ∧
    IsSecondPartial (planeLinCost n) (.inl i) (.inr j) (vars r t p q) (2 * planeLinDzdx r t p q n i j) := by
  constructor
  · convert planeLin_second n (.inl i) (.inl j) (vars r t p q) using 2
    rcases i with i | i <;> rcases j with j | j <;> fin_cases i <;> fin_cases j <;>
      simp [-mul_eq_mul_left_iff, -mul_eq_mul_right_iff, -neg_inj, planeLinDx2, linD, linD2, Fin.sum_univ_three, cross0, cross1, cross2, pOf, vars, vecMulVec_apply] <;> ring
  · convert planeLin_second n (.inl i) (.inr j) (vars r t p q) using 2
    rcases i with i | i <;> rcases j with j | j <;> fin_cases i <;> fin_cases j <;>
      simp [-mul_eq_mul_left_iff, -mul_eq_mul_right_iff, -neg_inj, planeLinDzdx, skewSymmetric, linD, linD2, Fin.sum_univ_three, cross0, cross1, cross2, residual_apply, pOf, rOf, tOf, qOf, vars,
        vecMulVec_apply, dotProduct] <;> ring

/-- C65. There is only one such matrix. -/
theorem C65_unique {F : (Var → ℝ) → ℝ} {r t p q : Fin 3 → ℝ} {A B : Mat6 ℝ}
    (hA : ∀ i j, IsSecondPartial F (.inl i) (.inl j) (vars r t p q) (2 * A i j))
    (hB : ∀ i j, IsSecondPartial F (.inl i) (.inl j) (vars r t p q) (2 * B i j)) : A = B := by
  funext i j
  have := (hA i j).unique (hB i j)
  linarith

end Icp

end Serpent
