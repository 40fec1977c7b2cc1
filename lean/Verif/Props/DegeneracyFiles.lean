import Verif.Model.DegeneracyFiles
import Verif.Props.Degeneracy

/-!
# The files with the derivatives of the linearised models (C141)
-/

namespace Serpent

namespace Degeneracy

namespace Files

open Matrix Icp Lidar EigenExt

theorem half_point_dx2 (p : Fin 3 → ℝ) : (halfPointDx2 p).submatrix position position = pointLinDx2 p := by
  ext i j
  rcases i with i | i <;> rcases j with j | j <;> fin_cases i <;> fin_cases j <;>
    simp [halfPointDx2, position, pointLinDx2, skewSymmetric] <;> ring

theorem full_point_dx2 (p : Fin 3 → ℝ) : (fullPointDx2 p).submatrix position position = (2 : ℝ) • pointLinDx2 p := by
  ext i j
  rcases i with i | i <;> rcases j with j | j <;> fin_cases i <;> fin_cases j <;>
    simp [fullPointDx2, position, pointLinDx2, skewSymmetric] <;> ring

theorem half_point_dzdx (r t p q : Fin 3 → ℝ) : (halfPointDzdx r t p q).submatrix position position = pointLinDzdx r t p q := by
  ext i j
  rcases i with i | i <;> rcases j with j | j <;> fin_cases i <;> fin_cases j <;>
    simp [halfPointDzdx, position, pointLinDzdx, skewSymmetric, cross0, cross1, cross2] <;> ring

theorem full_point_dzdx (r t p q : Fin 3 → ℝ) :
    (fullPointDzdx r t p q).submatrix position position = (2 : ℝ) • pointLinDzdx r t p q := by
  ext i j
  rcases i with i | i <;> rcases j with j | j <;> fin_cases i <;> fin_cases j <;>
    simp [fullPointDzdx, position, pointLinDzdx, skewSymmetric, cross0, cross1, cross2] <;> ring

theorem half_plane_dx2 (p n : Fin 3 → ℝ) : (halfPlaneDx2 p n).submatrix position position = planeLinDx2 p n := by
  ext i j
  rcases i with i | i <;> rcases j with j | j <;> fin_cases i <;> fin_cases j <;>
    simp [-mul_eq_mul_left_iff, halfPlaneDx2, position, planeLinDx2, vecMulVec_apply, cross0, cross1, cross2] <;> ring

theorem full_plane_dx2 (p n : Fin 3 → ℝ) : (fullPlaneDx2 p n).submatrix position position = (2 : ℝ) • planeLinDx2 p n := by
  ext i j
  rcases i with i | i <;> rcases j with j | j <;> fin_cases i <;> fin_cases j <;>
    simp [fullPlaneDx2, position, planeLinDx2, vecMulVec_apply, cross0, cross1, cross2] <;> ring

theorem half_plane_dzdx (r t p q n : Fin 3 → ℝ) :
    (halfPlaneDzdx r t p q n).submatrix position position = planeLinDzdx r t p q n := by
  ext i j
  rcases i with i | i <;> rcases j with j | j <;> fin_cases i <;> fin_cases j <;>
    simp [-mul_eq_mul_left_iff, halfPlaneDzdx, position, planeLinDzdx, vecMulVec_apply, skewSymmetric, dotProduct, Fin.sum_univ_three,
      cross0, cross1, cross2] <;>
    ring

theorem full_plane_dzdx (r t p q n : Fin 3 → ℝ) :
    (fullPlaneDzdx r t p q n).submatrix position position = (2 : ℝ) • planeLinDzdx r t p q n := by
  ext i j
  rcases i with i | i <;> rcases j with j | j <;> fin_cases i <;> fin_cases j <;>
    simp [fullPlaneDzdx, position, planeLinDzdx, vecMulVec_apply, skewSymmetric, dotProduct, Fin.sum_univ_three, cross0, cross1, cross2] <;>
    ring

/-- C141. Every entry in the files for the linearised models, whose rows and columns are numbered from 0 to 5, is the second derivative
of the squared residual (half of it where the name says so), and the matrices are those that the program uses. -/
theorem C141_files (r t p q n : Fin 3 → ℝ) (i j : Fin 3 ⊕ Fin 3) :
    (IsSecondPartial pointLinCost (.inl i) (.inl j) (vars r t p q) (fullPointDx2 p (position i) (position j)) ∧
      IsSecondPartial pointLinCost (.inl i) (.inr j) (vars r t p q) (fullPointDzdx r t p q (position i) (position j)) ∧
      halfPointDx2 p (position i) (position j) = pointLinDx2 p i j ∧
      halfPointDzdx r t p q (position i) (position j) = pointLinDzdx r t p q i j) ∧
    (IsSecondPartial (planeLinCost n) (.inl i) (.inl j) (vars r t p q) (fullPlaneDx2 p n (position i) (position j)) ∧
      IsSecondPartial (planeLinCost n) (.inl i) (.inr j) (vars r t p q) (fullPlaneDzdx r t p q n (position i) (position j)) ∧
      halfPlaneDx2 p n (position i) (position j) = planeLinDx2 p n i j ∧
      halfPlaneDzdx r t p q n (position i) (position j) = planeLinDzdx r t p q n i j) := by
  have h1 := congrFun (congrFun (full_point_dx2 p) i) j
  have h2 := congrFun (congrFun (full_point_dzdx r t p q) i) j
  have h3 := congrFun (congrFun (full_plane_dx2 p n) i) j
  have h4 := congrFun (congrFun (full_plane_dzdx r t p q n) i) j
  rw [submatrix_apply] at h1 h2 h3 h4
  refine ⟨⟨?_, ?_, congrFun (congrFun (half_point_dx2 p) i) j, congrFun (congrFun (half_point_dzdx r t p q) i) j⟩,
    ?_, ?_, congrFun (congrFun (half_plane_dx2 p n) i) j, congrFun (congrFun (half_plane_dzdx r t p q n) i) j⟩
  · rw [h1]; exact (C65_point_to_point r t p q i j).1
  · rw [h2]; exact (C65_point_to_point r t p q i j).2
  · rw [h3]; exact (C65_point_to_plane r t p q n i j).1
  · rw [h4]; exact (C65_point_to_plane r t p q n i j).2

/-- The positions are all rows and columns. -/
example : Function.Bijective position := by decide +kernel

end Files

end Degeneracy

end Serpent
