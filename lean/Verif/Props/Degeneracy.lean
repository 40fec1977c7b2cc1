import Verif.Model.Degeneracy
import Verif.Props.IcpLinear
import Verif.Spec.IcpNonlinear

/-!
# The formulas derived by hand (C141)
-/

namespace Serpent

namespace Degeneracy

open Matrix Icp Lidar EigenExt

/-- C141. The residuals of the script are those of the specification, with the linearised and the exact rotation … -/
theorem C141_residuals (r t p q n : Fin 3 → ℝ) :
    residual (rLin r) t p q = linearResidual (vars r t p q) ∧ planeResidual (rLin r) t p q n = n ⬝ᵥ linearResidual (vars r t p q) ∧
    residual (expRotation r) t p q = Icp.residual (vars r t p q) ∧
    planeResidual (expRotation r) t p q n = n ⬝ᵥ Icp.residual (vars r t p q) := by
  have h : residual (rLin r) t p q = linearResidual (vars r t p q) := by
    funext i
    rw [residual_apply]
    show (rLin r *ᵥ p) i + t i - q i = p i + crossProduct r p i + t i - q i
    fin_cases i <;> simp [rLin, cross0, cross1, cross2, Matrix.mulVec, dotProduct, Fin.sum_univ_three] <;> ring
  exact ⟨h, by rw [dotProduct_comm, ← h]; rfl, rfl, dotProduct_comm _ _⟩

/-- C141. … and the ones with a fourth coordinate add a zero only, for every matrix in the place of the rotation: the costs are the
same, although the normal gets a fourth coordinate of one. -/
theorem C141_homogeneous (R : Matrix (Fin 3) (Fin 3) ℝ) (t p q n : Fin 3 → ℝ) :
    residualAlt R t p q = Sum.elim (residual R t p q) 0 ∧
    residualAlt R t p q ⬝ᵥ residualAlt R t p q = residual R t p q ⬝ᵥ residual R t p q ∧
    planeResidualAlt R t p q n = planeResidual R t p q n := by
  have h : residualAlt R t p q = Sum.elim (residual R t p q) 0 := by
    funext i
    rcases i with i | i
    · simp [residualAlt, residual, transform, homogeneous, fromBlocks_mulVec, Matrix.mulVec, dotProduct]
    · simp [residualAlt, transform, homogeneous, fromBlocks_mulVec]
  refine ⟨h, by rw [h, sumElim_dotProduct_sumElim]; simp, ?_⟩
  show residualAlt R t p q ⬝ᵥ homogeneous n = _
  rw [h, homogeneous, sumElim_dotProduct_sumElim]
  simp [planeResidual, residual]

/-- The point formula is twice the matrix of the program. -/
theorem pointHand_eq (r t p q : Fin 3 → ℝ) : pointHand r t p q = (2 : ℝ) • pointLinDzdx r t p q := rfl

theorem pointHandAlt1_eq (r t p q : Fin 3 → ℝ) : pointHandAlt1 r t p q = pointHand r t p q := by
  unfold pointHandAlt1 pointHand
  congr 2
  ext i j
  fin_cases i <;> fin_cases j <;> simp [skew, rSkew, cross0, cross1, cross2] <;> ring

theorem pointHandAlt2_eq (r t p q : Fin 3 → ℝ) : pointHandAlt2 r t p q = pointHand r t p q := by
  unfold pointHandAlt2 pointHand
  congr 2
  ext i j
  fin_cases i <;> fin_cases j <;>
    simp [skew, rSkew, extra1, extra2, cross0, cross1, cross2] <;> ring

theorem planeHandDx2Alt_eq (p n : Fin 3 → ℝ) : planeHandDx2Alt p n = (2 : ℝ) • planeLinDx2 p n := by
  unfold planeHandDx2Alt planeLinDx2
  dsimp only
  rw [transpose_vecMulVec]

theorem planeHandDx2_eq (p n : Fin 3 → ℝ) : planeHandDx2 p n = planeHandDx2Alt p n := by
  unfold planeHandDx2 planeHandDx2Alt
  congr 1
  ext i j
  rcases i with i | i <;> rcases j with j | j <;> simp [rowA, Matrix.mul_apply, vecMulVec_apply]

theorem planeHandAlt_eq (r t p q n : Fin 3 → ℝ) : planeHandAlt r t p q n = (2 : ℝ) • planeLinDzdx r t p q n := rfl

theorem skew_mulVec (n p : Fin 3 → ℝ) : skew n *ᵥ p = crossProduct n p := by
  funext i
  fin_cases i <;> simp [skew, cross0, cross1, cross2, Matrix.mulVec, dotProduct, Fin.sum_univ_three] <;> ring

theorem vecMul_skew (n r : Fin 3 → ℝ) : r ᵥ* skew n = crossProduct r n := by
  funext i
  fin_cases i <;> simp [skew, cross0, cross1, cross2, Matrix.vecMul, dotProduct, Fin.sum_univ_three] <;> ring

theorem planeHand_eq (r t p q n : Fin 3 → ℝ) : planeHand r t p q n = planeHandAlt r t p q n := by
  unfold planeHand planeHandAlt
  congr 1
  ext i j
  rcases i with i | i <;> rcases j with j | j
  · unfold dATAx dATb
    rw [vecMulVec_mul, vecMul_skew, Matrix.mul_add, mul_vecMulVec, skew_mulVec, Matrix.mul_smul, Matrix.mul_one]
    fin_cases i <;> fin_cases j <;>
      simp [-mul_eq_mul_left_iff, -mul_eq_mul_right_iff, -neg_inj, skew, cross0, cross1, cross2, vecMulVec_apply,
        dotProduct, Fin.sum_univ_three] <;> ring
  · simp [dATAx, dATb]
  · simp [dATAx, dATb, vecMulVec_apply]; ring
  · simp [dATAx, dATb]

/-- C141. Every formula of the point-to-point model that the script derives by hand is the matrix of mixed second derivatives of the
squared residual, for all poses and points, and twice the matrix that the program uses. -/
theorem C141_point (r t p q : Fin 3 → ℝ) (B : Matrix (Fin 3 ⊕ Fin 3) (Fin 3 ⊕ Fin 3) ℝ)
    (hB : B ∈ [pointHand r t p q, pointHandAlt1 r t p q, pointHandAlt2 r t p q]) :
    (∀ i j, IsSecondPartial pointLinCost (.inl i) (.inr j) (vars r t p q) (B i j)) ∧ B = (2 : ℝ) • pointLinDzdx r t p q := by
  have h : B = (2 : ℝ) • pointLinDzdx r t p q := by
    rw [pointHandAlt1_eq, pointHandAlt2_eq] at hB
    simp only [List.mem_cons, List.not_mem_nil, or_false, or_self] at hB
    rw [hB, pointHand_eq]
  exact ⟨fun i j => by rw [h]; exact (C65_point_to_point r t p q i j).2, h⟩

/-- C141. So is every formula of the point-to-plane model, for the derivatives by the pose and for the mixed ones. -/
theorem C141_plane (r t p q n : Fin 3 → ℝ) (B C : Matrix (Fin 3 ⊕ Fin 3) (Fin 3 ⊕ Fin 3) ℝ)
    (hB : B ∈ [planeHandDx2 p n, planeHandDx2Alt p n]) (hC : C ∈ [planeHand r t p q n, planeHandAlt r t p q n]) :
    (∀ i j, IsSecondPartial (planeLinCost n) (.inl i) (.inl j) (vars r t p q) (B i j)) ∧
    (∀ i j, IsSecondPartial (planeLinCost n) (.inl i) (.inr j) (vars r t p q) (C i j)) ∧
    B = (2 : ℝ) • planeLinDx2 p n ∧ C = (2 : ℝ) • planeLinDzdx r t p q n := by
  have h : B = (2 : ℝ) • planeLinDx2 p n := by
    rw [planeHandDx2_eq] at hB
    simp only [List.mem_cons, List.not_mem_nil, or_false, or_self] at hB
    rw [hB, planeHandDx2Alt_eq]
  have h' : C = (2 : ℝ) • planeLinDzdx r t p q n := by
    rw [planeHand_eq] at hC
    simp only [List.mem_cons, List.not_mem_nil, or_false, or_self] at hC
    rw [hC, planeHandAlt_eq]
  exact ⟨fun i j => by rw [h]; exact (C65_point_to_plane r t p q n i j).1,
    fun i j => by rw [h']; exact (C65_point_to_plane r t p q n i j).2, h, h'⟩

theorem axis_unit {r : Fin 3 → ℝ} (h : r ≠ 0) : axis r 0 ^ 2 + axis r 1 ^ 2 + axis r 2 ^ 2 = 1 := by
  have hp : r 0 ^ 2 + r 1 ^ 2 + r 2 ^ 2 ≠ 0 := by
    intro e
    apply h
    have h0 : r 0 = 0 := by nlinarith [sq_nonneg (r 0), sq_nonneg (r 1), sq_nonneg (r 2)]
    have h1 : r 1 = 0 := by nlinarith [sq_nonneg (r 0), sq_nonneg (r 1), sq_nonneg (r 2)]
    have h2 : r 2 = 0 := by nlinarith [sq_nonneg (r 0), sq_nonneg (r 1), sq_nonneg (r 2)]
    funext i
    fin_cases i
    exacts [h0, h1, h2]
  have hs : ang r ^ 2 = r 0 ^ 2 + r 1 ^ 2 + r 2 ^ 2 := Real.sq_sqrt (by positivity)
  unfold axis
  rw [div_pow, div_pow, div_pow, hs, ← add_div, ← add_div, div_self hp]

/-- C141. The three rotation matrices of the script are the rotation of the rotation vector, for every rotation vector but zero,
where they are not defined. -/
theorem C141_rotation {r : Fin 3 → ℝ} (h : r ≠ 0) (R : Matrix (Fin 3) (Fin 3) ℝ)
    (hR : R ∈ [rotation (axis r) (Real.cos (ang r)) (Real.sin (ang r)), rotationAlt (axis r) (Real.cos (ang r)) (Real.sin (ang r)),
      rotationAlt2 (axis r) (Real.cos (ang r)) (Real.sin (ang r))]) : R = expRotation r := by
  have hu := axis_unit h
  have ha : ang r ≠ 0 := by
    intro e
    simp [axis, e] at hu
  have he : expRotation r = rodrigues (ang r) (axis r) := by
    unfold expRotation
    have : Real.sqrt (∑ i, r i ^ 2) = ang r := by rw [Fin.sum_univ_three]; rfl
    simp only [this]
    rw [if_neg ha]
    rfl
  rw [he]
  generalize axis r = u at hR hu
  simp only [List.mem_cons, List.not_mem_nil, or_false] at hR
  rcases hR with rfl | rfl | rfl
  · ext i j
    fin_cases i <;> fin_cases j <;> simp [-mul_eq_mul_left_iff, -mul_eq_mul_right_iff, rotation, rodrigues, skewOf] <;>
      first | ring1 | linear_combination (1 - Real.cos (ang r)) * hu
  · ext i j
    fin_cases i <;> fin_cases j <;>
      simp [-mul_eq_mul_left_iff, -mul_eq_mul_right_iff, rotationAlt, rodrigues, skewOf, vecMulVec_apply] <;>
      first | ring1 | linear_combination (1 - Real.cos (ang r)) * hu
  · ext i j
    fin_cases i <;> fin_cases j <;> simp [-mul_eq_mul_left_iff, -mul_eq_mul_right_iff, rotationAlt2, rodrigues, skewOf] <;> ring

/-- A vector meets the hypothesis, and the script's matrix is a turn by one radian about z. -/
example : (![0, 0, 1] : Fin 3 → ℝ) ≠ 0 ∧ ang ![0, 0, 1] = 1 := by
  refine ⟨fun e => by simpa using congrFun e 2, ?_⟩
  simp [ang]

/-- The points and normals of `C141_plane` are arbitrary; here with non-zero entries. -/
example : planeHand ![1, 2, 3] ![4, 5, 6] ![1, 0, 0] ![0, 1, 0] ![0, 0, 1] ∈
    [planeHand ![1, 2, 3] ![4, 5, 6] ![1, 0, 0] ![0, 1, 0] ![0, 0, 1],
      planeHandAlt ![1, 2, 3] ![4, 5, 6] ![1, 0, 0] ![0, 1, 0] ![0, 0, 1]] ∧
    planeHandAlt ![1, 2, 3] ![4, 5, 6] ![1, 0, 0] ![0, 1, 0] ![0, 0, 1] (.inr 2) (.inl 0) = -4 := by
  refine ⟨List.mem_cons_self, ?_⟩
  simp [planeHandAlt, cross_apply]
  norm_num

end Degeneracy

end Serpent
