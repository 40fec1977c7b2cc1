import Verif.Lemmas.Trajectory
import Mathlib.Analysis.InnerProductSpace.PiL2

/-! # Functions that keep the contract of Matlab's, and lengths -/

namespace Serpent

namespace Trajectory

open EigenExt Matrix

open Classical in
/-- Functions like Matlab's; the interpolation keeps the first orientation until the end. -/
noncomputable def exampleLib : Lib where
  rotm2quat := Quat.ofMatrix
  rotm2axang R := ((Quat.ofMatrix R).axis, (Quat.ofMatrix R).angle)
  quatinterp p q c := if c = 1 then q else p

theorem rodrigues_of_unit {q : Quat} (h : Quat.Unit q) : rodrigues q.angle q.axis = q.toMatrix := by
  rw [← Quat.expRotation_rotVec h]
  have hs : Real.sqrt (∑ i, q.rotVec i ^ 2) = q.angle := by
    have e : ∑ i, q.rotVec i ^ 2 = q.angle ^ 2 := by
      have := Quat.axis_sq q
      unfold Quat.rotVec
      simp only [mul_pow, ← Finset.sum_mul, this, one_mul]
    rw [e, Real.sqrt_sq h.angle_bounds.1]
  unfold expRotation
  simp only [hs]
  by_cases ha : q.angle = 0
  · rw [if_pos ha, ha]
    simp [rodrigues]
  · rw [if_neg ha]
    congr 1
    ext i
    unfold Quat.rotVec
    field_simp

theorem exampleLib_lawful : exampleLib.Lawful where
  quatUnit R h := Quat.ofMatrix_unit h
  quatMatrix R h := Quat.toMatrix_ofMatrix h
  axis R h := Quat.axis_sq _
  angle R h := (Quat.ofMatrix_unit h).angle_bounds
  axang R h := (rodrigues_of_unit (Quat.ofMatrix_unit h)).trans (Quat.toMatrix_ofMatrix h)
  interpUnit p q c hp hq _ _ := by
    unfold exampleLib
    dsimp only
    split <;> assumption
  interpZero p q _ _ := by simp [exampleLib]
  interpOne p q _ _ := by simp [exampleLib]

/-! ### Lengths -/

theorem distance_dist (a b : Fin 3 → ℝ) : distance a b = dist (WithLp.toLp 2 a) (WithLp.toLp 2 b) := by
  rw [EuclideanSpace.dist_eq]
  unfold distance
  congr 1
  refine Finset.sum_congr rfl fun i _ => ?_
  rw [Real.dist_eq, sq_abs]

theorem distance_triangle (a b c : Fin 3 → ℝ) : distance a c ≤ distance a b + distance b c := by
  simp only [distance_dist]
  exact dist_triangle _ _ _

theorem distance_self (a : Fin 3 → ℝ) : distance a a = 0 := by simp [distance]

theorem le_pathLength : ∀ (l : List (Fin 3 → ℝ)) (p q : Fin 3 → ℝ), (p :: l).getLast? = some q → distance p q ≤ pathLength (p :: l)
  | [], p, q, h => by
    obtain rfl : p = q := by simpa using h
    simp [distance_self, pathLength]
  | r :: l, p, q, h => by
    rw [List.getLast?_cons_cons] at h
    have := le_pathLength l r q h
    have := distance_triangle p r q
    simp only [pathLength]
    linarith

theorem distance_eq_zero {a b : Fin 3 → ℝ} (h : distance a b = 0) : a = b := by
  rw [distance_dist] at h
  have := dist_eq_zero.1 h
  exact (WithLp.toLp_injective 2) this

end Trajectory

end Serpent
