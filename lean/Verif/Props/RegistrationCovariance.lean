import Verif.Props.IcpLinear
import Verif.Spec.RegistrationCovariance
import Mathlib.LinearAlgebra.Matrix.PosDef
import Mathlib.Algebra.BigOperators.Fin
import Mathlib.Data.Real.StarOrdered
import Mathlib.Data.Matrix.ColumnRowPartitioned

/-!
# The covariances of a registration (C65, C66, C67)
-/

namespace Serpent

namespace Icp

open Matrix EigenExt Lidar

/-! ### The sums over the correspondences -/

theorem sumDx2_eq {K : Type} [CommRing K] (M : IcpModel K) (l : List (Pt K × Pt K)) :
    sumDx2 M l = ∑ k : Fin l.length, M.dx2 (l.get k).1 (l.get k).2 := by
  have h : ∀ (l : List (Pt K × Pt K)) (H : Mat6 K),
      l.foldl (fun H c => H + M.dx2 c.1 c.2) H = H + (l.map fun c => M.dx2 c.1 c.2).sum := by
    intro l
    induction l with
    | nil => intro H; simp
    | cons c cs ih => intro H; rw [List.foldl_cons, ih, List.map_cons, List.sum_cons, add_assoc]
  unfold sumDx2
  rw [h, zero_add, ← Fin.sum_univ_fun_getElem]
  rfl

theorem varsOf_allVars {n : Nat} (r t : Fin 3 → ℝ) (p q : Fin n → Fin 3 → ℝ) (k : Fin n) :
    varsOf (allVars r t p q) k = vars r t (p k) (q k) := by
  funext v
  rcases v with (i | i) | (i | i) <;> rfl

/-- C65. For a list of correspondences, and the linearised point-to-point model: the matrix whose inverse is used in the covariances
is half the Hessian of the sum of the squared residuals by the pose, and the columns of the other matrix are half its mixed
derivatives by the pose and the points of each correspondence. -/
theorem C65_total_point (r t : Fin 3 → ℝ) (l : List (Pt ℝ × Pt ℝ)) (i j : Fin 3 ⊕ Fin 3) (k : Fin l.length) :
    let w := allVars r t (fun k => (l.get k).1.pos) (fun k => (l.get k).2.pos)
    IsSecondPartial (totalCost fun _ => pointLinCost) (.inl i) (.inl j) w (2 * sumDx2 (pointLin r t) l i j) ∧
    IsSecondPartial (totalCost fun _ => pointLinCost) (.inl i) (.inr (k, j)) w (2 * allDzdx (pointLin r t) l i (k, j)) := by
  constructor
  · rw [sumDx2_eq, Matrix.sum_apply, Finset.mul_sum]
    refine totalCost_pose fun k => ?_
    rw [varsOf_allVars]
    exact (C65_point_to_point r t _ _ i j).1
  · refine totalCost_mixed ?_
    rw [varsOf_allVars]
    exact (C65_point_to_point r t _ _ i j).2

/-- C65. The same for the linearised point-to-plane model; the normals are those of the target points. -/
theorem C65_total_plane (r t : Fin 3 → ℝ) (l : List (Pt ℝ × Pt ℝ)) (i j : Fin 3 ⊕ Fin 3) (k : Fin l.length) :
    let w := allVars r t (fun k => (l.get k).1.pos) (fun k => (l.get k).2.pos)
    let F := totalCost fun k => planeLinCost (l.get k).2.normal
    IsSecondPartial F (.inl i) (.inl j) w (2 * sumDx2 (planeLin r t) l i j) ∧
    IsSecondPartial F (.inl i) (.inr (k, j)) w (2 * allDzdx (planeLin r t) l i (k, j)) := by
  constructor
  · rw [sumDx2_eq, Matrix.sum_apply, Finset.mul_sum]
    refine totalCost_pose fun k => ?_
    rw [varsOf_allVars]
    exact (C65_point_to_plane r t _ _ _ i j).1
  · refine totalCost_mixed (cost := fun k => planeLinCost (l.get k).2.normal) ?_
    rw [varsOf_allVars]
    exact (C65_point_to_plane r t _ _ _ i j).2

/-! ### Symmetry and definiteness of the Hessian -/

/-- The Hessian of each correspondence is symmetric. -/
def Symmetric {K : Type} (M : IcpModel K) : Prop := ∀ s g, (M.dx2 s g)ᵀ = M.dx2 s g

theorem skew_transpose {K : Type} [CommRing K] (v : Fin 3 → K) : (skewSymmetric v)ᵀ = -skewSymmetric v := by
  funext i j
  fin_cases i <;> fin_cases j <;> simp [skewSymmetric]

theorem pointLin_symmetric {K : Type} [CommRing K] (r t : Fin 3 → K) : Symmetric (pointLin r t) := by
  intro s g
  show (pointLinDx2 s.pos)ᵀ = _
  unfold pointLinDx2
  rw [fromBlocks_transpose, transpose_neg, transpose_neg, transpose_mul, skew_transpose, transpose_one, neg_mul_neg, neg_neg]
  rfl

theorem planeLin_symmetric {K : Type} [CommRing K] (r t : Fin 3 → K) : Symmetric (planeLin r t) := by
  intro s g
  show (planeLinDx2 s.pos g.normal)ᵀ = planeLinDx2 s.pos g.normal
  unfold planeLinDx2
  dsimp only
  rw [fromBlocks_transpose, transpose_transpose, transpose_vecMulVec, transpose_vecMulVec,
    transpose_vecMulVec]

theorem sumDx2_symmetric {K : Type} [CommRing K] {M : IcpModel K} (h : Symmetric M) (l : List (Pt K × Pt K)) :
    (sumDx2 M l)ᵀ = sumDx2 M l := by
  rw [sumDx2_eq, transpose_sum]
  exact Finset.sum_congr rfl fun k _ => h _ _

/-- The Hessian of a correspondence of the linearised point-to-point model is a square. -/
theorem pointLin_square (p : Fin 3 → ℝ) :
    pointLinDx2 p = (fromCols (-skewSymmetric p) 1 : Matrix (Fin 3) (Fin 3 ⊕ Fin 3) ℝ)ᵀ * fromCols (-skewSymmetric p) 1 := by
  rw [transpose_fromCols, fromRows_mul_fromCols, transpose_neg, skew_transpose, transpose_one, neg_neg, Matrix.mul_neg,
    Matrix.mul_one, Matrix.one_mul, Matrix.one_mul]
  rfl

/-- The Hessian of a correspondence of the linearised point-to-plane model is a square. -/
theorem planeLin_square (p n : Fin 3 → ℝ) :
    planeLinDx2 p n = vecMulVec (Sum.elim (crossProduct p n) n) (Sum.elim (crossProduct p n) n) := by
  funext i j
  rcases i with i | i <;> rcases j with j | j <;> simp [planeLinDx2, vecMulVec_apply, mul_comm]

theorem pointLin_psd (r t : Fin 3 → ℝ) (l : List (Pt ℝ × Pt ℝ)) : (sumDx2 (pointLin r t) l).PosSemidef := by
  rw [sumDx2_eq]
  refine posSemidef_sum _ fun k _ => ?_
  show (pointLinDx2 _).PosSemidef
  rw [pointLin_square, ← conjTranspose_eq_transpose_of_trivial]
  exact posSemidef_conjTranspose_mul_self _

theorem planeLin_psd (r t : Fin 3 → ℝ) (l : List (Pt ℝ × Pt ℝ)) : (sumDx2 (planeLin r t) l).PosSemidef := by
  rw [sumDx2_eq]
  refine posSemidef_sum _ fun k _ => ?_
  show (planeLinDx2 _ _).PosSemidef
  rw [planeLin_square]
  have := posSemidef_vecMulVec_self_star (R := ℝ) (Sum.elim (crossProduct (l.get k).1.pos (l.get k).2.normal) (l.get k).2.normal)
  simpa using this

/-! ### The covariances -/

theorem inverse_some {H : Mat6 ℝ} (h : IsUnit H.det) : inverse H = some H⁻¹ := if_pos h

theorem sandwich {M : IcpModel ℝ} (hM : Symmetric M) {l : List (Pt ℝ × Pt ℝ)} (S : Matrix (Meas l) (Meas l) ℝ) :
    (sumDx2 M l)⁻¹ * (allDzdx M l * S * (allDzdx M l)ᵀ) * (sumDx2 M l)⁻¹ =
      propagated (sensitivity ((2 : ℝ) • sumDx2 M l) ((2 : ℝ) • allDzdx M l)) S := by
  have hs := sumDx2_symmetric hM l
  have h2 : ((2 : ℝ) • sumDx2 M l)⁻¹ * ((2 : ℝ) • allDzdx M l) = (sumDx2 M l)⁻¹ * allDzdx M l := by
    by_cases h : IsUnit (sumDx2 M l).det
    · have : Invertible (2 : ℝ) := ⟨1 / 2, by norm_num, by norm_num⟩
      rw [Matrix.inv_smul _ (2 : ℝ) h, Matrix.smul_mul, Matrix.mul_smul, smul_smul, invOf_mul_self, one_smul]
    · have h' : ¬ IsUnit ((2 : ℝ) • sumDx2 M l).det := by
        rw [Matrix.det_smul]
        intro hu
        exact h (isUnit_of_mul_isUnit_right hu)
      rw [Matrix.nonsing_inv_apply_not_isUnit _ h, Matrix.nonsing_inv_apply_not_isUnit _ h', Matrix.zero_mul, Matrix.zero_mul]
  unfold propagated sensitivity
  rw [h2, transpose_neg, transpose_mul, transpose_nonsing_inv, hs]
  simp only [Matrix.neg_mul, Matrix.mul_neg, neg_neg, Matrix.mul_assoc]

/-- C66. With an invertible Hessian, the covariance for independent errors of all coordinates of all points is the one propagated
from the points to the pose that minimises the cost: `F_xx` and `F_xz` are the full derivatives. -/
theorem C66_censi_iid {M : IcpModel ℝ} (hM : Symmetric M) (l : List (Pt ℝ × Pt ℝ)) (hdet : IsUnit (sumDx2 M l).det) (v : ℝ) :
    censiIid M v l = some (propagated (sensitivity ((2 : ℝ) • sumDx2 M l) ((2 : ℝ) • allDzdx M l)) (v • 1)) := by
  unfold censiIid
  rw [inverse_some hdet, Option.map_some, ← sandwich hM]
  simp only [Matrix.smul_mul, Matrix.mul_smul, Matrix.mul_one, Matrix.mul_assoc]

theorem sigmaRange_eq (v : ℝ) (l : List (Pt ℝ × Pt ℝ)) :
    sigmaRange v l = rangeCovariance v (fun k => (l.get k).1.unit) (fun k => (l.get k).2.unit) := by
  funext a b
  unfold sigmaRange rangeCovariance propagated
  rw [Matrix.mul_smul, Matrix.mul_one, Matrix.smul_mul, Matrix.smul_apply, Matrix.mul_apply, Fintype.sum_prod_type]
  obtain ⟨a, i⟩ := a
  obtain ⟨b, j⟩ := b
  dsimp only
  have : ∀ k : Fin l.length, ∑ e : Bool, alongBeam (fun k => (l.get k).1.unit) (fun k => (l.get k).2.unit) (a, i) (k, e) *
      (alongBeam (fun k => (l.get k).1.unit) (fun k => (l.get k).2.unit))ᵀ (k, e) (b, j) =
      if a = k then if b = k then (match i, j with
        | .inl i, .inl j => (l.get a).1.unit i * (l.get b).1.unit j
        | .inr i, .inr j => (l.get a).2.unit i * (l.get b).2.unit j
        | _, _ => 0) else 0 else 0 := by
    intro k
    rw [Fintype.sum_bool]
    simp only [transpose_apply, alongBeam]
    by_cases h1 : a = k <;> by_cases h2 : b = k
    · simp only [if_pos h1, if_pos h2]
      rcases i with i | i <;> rcases j with j | j <;> simp
    all_goals simp [h1, h2]
  simp only [this, Finset.sum_ite_eq, Finset.mem_univ, if_true]
  by_cases h : a = b
  · subst h
    rw [if_pos rfl, if_pos rfl]
    rcases i with i | i <;> rcases j with j | j <;> simp [vecMulVec_apply]
  · rw [if_neg h, if_neg (Ne.symm h), smul_zero]

/-- C66. The same for independent errors of the ranges of all points. -/
theorem C66_censi_range {M : IcpModel ℝ} (hM : Symmetric M) (l : List (Pt ℝ × Pt ℝ)) (hdet : IsUnit (sumDx2 M l).det) (v : ℝ) :
    censiRange M v l = some (propagated (sensitivity ((2 : ℝ) • sumDx2 M l) ((2 : ℝ) • allDzdx M l))
      (rangeCovariance v (fun k => (l.get k).1.unit) (fun k => (l.get k).2.unit))) := by
  unfold censiRange
  rw [inverse_some hdet, Option.map_some, sandwich hM, sigmaRange_eq]

/-- C66. The linear least squares covariance: the variance times the inverse of half the Hessian. -/
theorem C66_lls {M : IcpModel ℝ} (l : List (Pt ℝ × Pt ℝ)) (hdet : IsUnit (sumDx2 M l).det) (v : ℝ) :
    ∃ C, llsIid M v l = some C ∧ C * sumDx2 M l = v • 1 ∧ sumDx2 M l * C = v • 1 := by
  unfold llsIid
  rw [inverse_some hdet]
  refine ⟨_, rfl, ?_, ?_⟩
  · rw [Matrix.smul_mul, nonsing_inv_mul _ hdet]
  · rw [Matrix.mul_smul, mul_nonsing_inv _ hdet]

theorem propagated_psd {X Z : Type} [Fintype X] [Fintype Z] (A : Matrix X Z ℝ) {S : Matrix Z Z ℝ} (hS : S.PosSemidef) :
    (propagated A S).PosSemidef := by
  unfold propagated
  rw [← conjTranspose_eq_transpose_of_trivial]
  exact hS.mul_mul_conjTranspose_same A

theorem smul_one_psd {Z : Type} [Fintype Z] [DecidableEq Z] {v : ℝ} (hv : 0 ≤ v) : (v • (1 : Matrix Z Z ℝ)).PosSemidef :=
  PosSemidef.smul PosSemidef.one hv

/-- C66. Every covariance that is computed by the method of Censi is symmetric and positive semidefinite, for variances that are not
negative. -/
theorem C66_censi_valid {M : IcpModel ℝ} (hM : Symmetric M) (l : List (Pt ℝ × Pt ℝ)) {v b : ℝ} (hv : 0 ≤ v) (hb : 0 ≤ b) (C : Mat6 ℝ)
    (h : censiIid M v l = some C ∨ censiRange M v l = some C ∨ censiRangeBias M v b l = some C) : C.PosSemidef := by
  by_cases hdet : IsUnit (sumDx2 M l).det
  · rcases h with h | h | h
    · rw [C66_censi_iid hM l hdet, Option.some.injEq] at h
      rw [← h]
      exact propagated_psd _ (smul_one_psd hv)
    · rw [C66_censi_range hM l hdet, Option.some.injEq] at h
      rw [← h]
      exact propagated_psd _ (propagated_psd _ (smul_one_psd hv))
    · unfold censiRangeBias at h
      rw [inverse_some hdet, Option.map_some, sandwich hM, Option.some.injEq] at h
      rw [← h]
      refine propagated_psd _ ?_
      unfold sigmaRangeBias
      dsimp only
      refine PosSemidef.add (PosSemidef.smul ?_ hb) (PosSemidef.diagonal fun a => ?_)
      · have := posSemidef_vecMulVec_self_star (R := ℝ) (unitVectors l)
        simpa using this
      · exact mul_nonneg hv (by rw [vecMulVec_apply]; exact mul_self_nonneg _)
  · have hn : inverse (sumDx2 M l) = none := if_neg hdet
    rcases h with h | h | h
    · unfold censiIid at h; rw [hn] at h; cases h
    · unfold censiRange at h; rw [hn] at h; cases h
    · unfold censiRangeBias at h; rw [hn] at h; cases h

/-- C66. Every linear least squares covariance of a linearised model is symmetric and positive semidefinite. -/
theorem C66_lls_valid_partial (r t : Fin 3 → ℝ) (l : List (Pt ℝ × Pt ℝ)) {v : ℝ} (hv : 0 ≤ v) (C : Mat6 ℝ)
    (h : llsIid (pointLin r t) v l = some C ∨ llsIid (planeLin r t) v l = some C) : C.PosSemidef := by
  have : ∀ M : IcpModel ℝ, (sumDx2 M l).PosSemidef → llsIid M v l = some C → C.PosSemidef := by
    intro M hM h
    unfold llsIid inverse at h
    by_cases hdet : IsUnit (sumDx2 M l).det
    · rw [if_pos hdet, Option.map_some, Option.some.injEq] at h
      rw [← h]
      exact hM.inv.smul hv
    · rw [if_neg hdet] at h; cases h
  rcases h with h | h
  · exact this _ (pointLin_psd r t l) h
  · exact this _ (planeLin_psd r t l) h

/-- C66. The covariances scale with the variances of the points. -/
theorem C66_scale (M : IcpModel ℝ) (l : List (Pt ℝ × Pt ℝ)) (c v b : ℝ) :
    censiIid M (c * v) l = (censiIid M v l).map (c • ·) ∧ censiRange M (c * v) l = (censiRange M v l).map (c • ·) ∧
    censiRangeBias M (c * v) (c * b) l = (censiRangeBias M v b l).map (c • ·) ∧
    llsIid M (c * v) l = (llsIid M v l).map (c • ·) := by
  have h1 : sigmaRange (c * v) l = c • sigmaRange v l := by
    rw [sigmaRange_eq, sigmaRange_eq]
    unfold rangeCovariance propagated
    simp only [Matrix.mul_smul, Matrix.smul_mul, mul_smul]
  have h2 : sigmaRangeBias (c * v) (c * b) l = c • sigmaRangeBias v b l := by
    unfold sigmaRangeBias
    dsimp only
    rw [smul_add, smul_smul, ← diagonal_smul]
    congr 2
    funext a
    simp [mul_assoc]
  refine ⟨?_, ?_, ?_, ?_⟩
  · unfold censiIid
    rw [Option.map_map]
    congr 1
    funext Hi
    simp [mul_smul]
  · unfold censiRange
    rw [Option.map_map, h1]
    congr 1
    funext Hi
    simp
  · unfold censiRangeBias
    rw [Option.map_map, h2]
    congr 1
    funext Hi
    simp
  · unfold llsIid
    rw [Option.map_map]
    congr 1
    funext Hi
    simp [mul_smul]

/-- C66. There is a covariance exactly if the Hessian is invertible; in particular there is none without correspondences. -/
theorem C66_defined (M : IcpModel ℝ) (l : List (Pt ℝ × Pt ℝ)) (v b : ℝ) :
    ((censiIid M v l).isSome ↔ IsUnit (sumDx2 M l).det) ∧ ((censiRange M v l).isSome ↔ IsUnit (sumDx2 M l).det) ∧
    ((censiRangeBias M v b l).isSome ↔ IsUnit (sumDx2 M l).det) ∧ ((llsIid M v l).isSome ↔ IsUnit (sumDx2 M l).det) ∧
    (l = [] → censiIid M v l = none) := by
  have h : (inverse (sumDx2 M l)).isSome ↔ IsUnit (sumDx2 M l).det := by
    unfold inverse
    by_cases h : IsUnit (sumDx2 M l).det
    · simp [h]
    · simp [h]
  refine ⟨?_, ?_, ?_, ?_, ?_⟩
  · unfold censiIid; rwa [Option.isSome_map]
  · unfold censiRange; rwa [Option.isSome_map]
  · unfold censiRangeBias; rwa [Option.isSome_map]
  · unfold llsIid; rwa [Option.isSome_map]
  · rintro rfl
    unfold censiIid inverse
    rw [if_neg (by simp [sumDx2])]
    rfl

/-! ### Range errors with a common bias -/

theorem propagated_bias {n : Nat} (b : ℝ) (source target : Fin n → Fin 3 → ℝ) :
    propagated (alongBeam source target) (b • vecMulVec 1 1) =
      b • vecMulVec (fun a => Sum.elim (source a.1) (target a.1) a.2) (fun a => Sum.elim (source a.1) (target a.1) a.2) := by
  have h : alongBeam source target *ᵥ 1 = fun a => Sum.elim (source a.1) (target a.1) a.2 := by
    funext a
    obtain ⟨k, i⟩ := a
    simp only [mulVec, dotProduct, Fintype.sum_prod_type, Fintype.sum_bool, alongBeam, Pi.one_apply, mul_one]
    rcases i with i | i <;> simp
  unfold propagated
  rw [Matrix.mul_smul, Matrix.smul_mul, mul_vecMulVec, vecMulVec_mul, vecMul_transpose, h]

/-- C67. The part of the bias is right: without independent errors, the covariance for ranges with a bias is the one propagated from
a single error that is added to all ranges. -/
theorem C67_bias {M : IcpModel ℝ} (hM : Symmetric M) (l : List (Pt ℝ × Pt ℝ)) (hdet : IsUnit (sumDx2 M l).det) (b : ℝ) :
    censiRangeBias M 0 b l = some (propagated (sensitivity ((2 : ℝ) • sumDx2 M l) ((2 : ℝ) • allDzdx M l))
      (rangeBiasCovariance 0 b (fun k => (l.get k).1.unit) (fun k => (l.get k).2.unit))) := by
  unfold censiRangeBias
  rw [inverse_some hdet, Option.map_some, sandwich hM]
  congr 2
  unfold rangeBiasCovariance sigmaRangeBias
  rw [zero_smul, zero_add, propagated_bias]
  funext a c
  simp only [zero_mul, diagonal_zero, add_zero]
  rfl

/-- A direction with at most one coordinate that is not zero. -/
def AxisAligned (u : Fin 3 → ℝ) : Prop := ∀ i j, i ≠ j → u i * u j = 0

theorem sigmaRangeBias_aligned (v b : ℝ) (l : List (Pt ℝ × Pt ℝ)) (h : ∀ c ∈ l, AxisAligned c.1.unit ∧ AxisAligned c.2.unit) :
    sigmaRangeBias v b l = rangeBiasCovariance v b (fun k => (l.get k).1.unit) (fun k => (l.get k).2.unit) := by
  have hsplit : rangeBiasCovariance v b (fun k => (l.get k).1.unit) (fun k => (l.get k).2.unit) =
      propagated (alongBeam (fun k => (l.get k).1.unit) (fun k => (l.get k).2.unit)) (b • vecMulVec 1 1) + sigmaRange v l := by
    rw [sigmaRange_eq]
    unfold rangeBiasCovariance rangeCovariance propagated
    rw [add_comm, Matrix.mul_add, Matrix.add_mul]
  rw [hsplit, propagated_bias]
  unfold sigmaRangeBias
  dsimp only
  congr 1
  funext a c
  obtain ⟨k, i⟩ := a
  obtain ⟨k', j⟩ := c
  unfold sigmaRange
  by_cases hk : k = k'
  · subst hk
    have hl := h (l.get k) (List.get_mem ..)
    rcases i with i | i <;> rcases j with j | j
    · by_cases hij : i = j
      · subst hij; simp [unitVectors, vecMulVec_apply]
      · have := hl.1 i j hij
        simp only [List.get_eq_getElem] at this
        simp [unitVectors, vecMulVec_apply, hij, this]
    · simp
    · simp
    · by_cases hij : i = j
      · subst hij; simp [unitVectors, vecMulVec_apply]
      · have := hl.2 i j hij
        simp only [List.get_eq_getElem] at this
        simp [unitVectors, vecMulVec_apply, hij, this]
  · simp [hk]

/-- C67, in part. If every beam runs along an axis, the covariance for ranges with a bias is the one propagated from independent
errors of the ranges and one common error; with no bias it is the covariance for ranges. Missing: beams in other directions, for
which the claim fails (`C67_fails`). -/
theorem C67_partial {M : IcpModel ℝ} (hM : Symmetric M) (l : List (Pt ℝ × Pt ℝ)) (hdet : IsUnit (sumDx2 M l).det)
    (h : ∀ c ∈ l, AxisAligned c.1.unit ∧ AxisAligned c.2.unit) (v b : ℝ) :
    censiRangeBias M v b l = some (propagated (sensitivity ((2 : ℝ) • sumDx2 M l) ((2 : ℝ) • allDzdx M l))
      (rangeBiasCovariance v b (fun k => (l.get k).1.unit) (fun k => (l.get k).2.unit))) ∧
    censiRangeBias M v 0 l = censiRange M v l := by
  constructor
  · unfold censiRangeBias
    rw [inverse_some hdet, Option.map_some, sandwich hM, sigmaRangeBias_aligned v b l h]
  · unfold censiRangeBias censiRange
    rw [sigmaRangeBias_aligned v 0 l h, sigmaRange_eq]
    unfold rangeBiasCovariance rangeCovariance
    rw [zero_smul, add_zero]

/-! ### A scan of three points -/

/-- A point on a beam in direction `(3/5, 4/5, 0)`. -/
noncomputable def tilted (p : Fin 3 → ℝ) : Pt ℝ := ⟨p, ![0, 0, 1], ![3 / 5, 4 / 5, 0]⟩

/-- Three correspondences of points with themselves. -/
noncomputable def threePoints : List (Pt ℝ × Pt ℝ) :=
  [(tilted ![1, 0, 0], tilted ![1, 0, 0]), (tilted ![0, 1, 0], tilted ![0, 1, 0]), (tilted ![0, 0, 1], tilted ![0, 0, 1])]

theorem threePoints_hessian (r t : Fin 3 → ℝ) : sumDx2 (pointLin r t) threePoints =
    fromBlocks ((2 : ℝ) • 1) (skewSymmetric ![1, 1, 1]) (-skewSymmetric ![1, 1, 1]) ((3 : ℝ) • 1) := by
  unfold sumDx2 threePoints tilted pointLin
  simp only [List.foldl_cons, List.foldl_nil, zero_add, pointLinDx2, fromBlocks_add]
  congr 1
  · funext i j
    fin_cases i <;> fin_cases j <;> simp [skewSymmetric, Matrix.mul_apply, Fin.sum_univ_three] <;> norm_num
  · funext i j
    fin_cases i <;> fin_cases j <;> simp [skewSymmetric]
  · funext i j
    fin_cases i <;> fin_cases j <;> simp [skewSymmetric]
  · funext i j
    fin_cases i <;> fin_cases j <;> simp <;> norm_num

/-- The Hessian of the three points is invertible. -/
theorem threePoints_det (r t : Fin 3 → ℝ) : IsUnit (sumDx2 (pointLin r t) threePoints).det := by
  rw [threePoints_hessian]
  have h : fromBlocks ((2 : ℝ) • (1 : Matrix (Fin 3) (Fin 3) ℝ)) (skewSymmetric ![1, 1, 1]) (-skewSymmetric ![1, 1, 1]) ((3 : ℝ) • 1) *
      fromBlocks !![5 / 6, -1 / 6, -1 / 6; -1 / 6, 5 / 6, -1 / 6; -1 / 6, -1 / 6, 5 / 6]
        !![0, 1 / 3, -1 / 3; -1 / 3, 0, 1 / 3; 1 / 3, -1 / 3, 0] !![0, -1 / 3, 1 / 3; 1 / 3, 0, -1 / 3; -1 / 3, 1 / 3, 0]
        !![5 / 9, -1 / 9, -1 / 9; -1 / 9, 5 / 9, -1 / 9; -1 / 9, -1 / 9, 5 / 9] = 1 := by
    rw [fromBlocks_multiply, ← fromBlocks_one]
    congr 1 <;> funext i j <;> fin_cases i <;> fin_cases j <;>
      simp [skewSymmetric, Matrix.mul_apply, Fin.sum_univ_three, vecMulVec_apply, Matrix.one_apply] <;> norm_num
  exact isUnit_det_of_right_inverse h

theorem threePoints_sum (f : Fin threePoints.length → ℝ) : ∑ k, f k = f ⟨0, by decide⟩ + f ⟨1, by decide⟩ + f ⟨2, by decide⟩ :=
  Fin.sum_univ_three f

/-- Non-vacuity of C66: the three points have covariances of all four kinds, and the one for equal errors is positive
semidefinite. -/
example : ∃ C, censiIid (pointLin ![1, 0, 0] ![0, 2, 0]) 3 threePoints = some C ∧ C.PosSemidef := by
  have h := C66_censi_iid (pointLin_symmetric ![1, 0, 0] ![0, 2, 0]) threePoints (threePoints_det _ _) 3
  exact ⟨_, h, C66_censi_valid (pointLin_symmetric _ _) threePoints (by norm_num) (le_refl 0) _ (.inl h)⟩

example : ∃ C, llsIid (pointLin ![1, 0, 0] ![0, 2, 0]) 3 threePoints = some C ∧ C.PosSemidef := by
  obtain ⟨C, h, -⟩ := C66_lls (M := pointLin ![1, 0, 0] ![0, 2, 0]) threePoints (threePoints_det _ _) 3
  exact ⟨C, h, C66_lls_valid_partial _ _ threePoints (by norm_num) _ (.inl h)⟩

/-- C67 fails: with no bias, the covariance for ranges with a bias is not the covariance for ranges. The three correspondences are
those above, the models agree on everything but the errors: instead of `u uᵀ` only its diagonal is kept. -/
theorem C67_fails : ∃ (l : List (Pt ℝ × Pt ℝ)) (v : ℝ), IsUnit (sumDx2 (pointLin 0 0) l).det ∧
    (∀ c ∈ l, c.1.unit ⬝ᵥ c.1.unit = 1 ∧ c.2.unit ⬝ᵥ c.2.unit = 1) ∧
    censiRangeBias (pointLin 0 0) v 0 l ≠ censiRange (pointLin 0 0) v l := by
  have hdet := threePoints_det 0 0
  refine ⟨threePoints, 1, hdet, ?_, ?_⟩
  · intro c hc
    simp only [threePoints, List.mem_cons, List.not_mem_nil, or_false] at hc
    rcases hc with rfl | rfl | rfl <;> simp [tilted, dotProduct, Fin.sum_univ_three] <;> norm_num
  · intro h
    unfold censiRangeBias censiRange at h
    rw [inverse_some hdet, Option.map_some, Option.map_some, Option.some.injEq] at h
    have hc : ∀ X Y : Mat6 ℝ, (sumDx2 (pointLin 0 0) threePoints)⁻¹ * X * (sumDx2 (pointLin 0 0) threePoints)⁻¹ =
        (sumDx2 (pointLin 0 0) threePoints)⁻¹ * Y * (sumDx2 (pointLin 0 0) threePoints)⁻¹ → X = Y := by
      intro X Y h
      have := congrArg (fun Z => sumDx2 (pointLin 0 0) threePoints * Z * sumDx2 (pointLin 0 0) threePoints) h
      simp only [Matrix.mul_assoc, nonsing_inv_mul _ hdet, Matrix.mul_one] at this
      simpa only [← Matrix.mul_assoc, mul_nonsing_inv _ hdet, Matrix.one_mul] using this
    have h := congrFun (congrFun (hc _ _ h) (.inr 0)) (.inr 1)
    have hD : ∀ (k : Fin threePoints.length) (i j : Fin 3), allDzdx (pointLin 0 0) threePoints (.inr i) (k, .inl j) = if i = j then 1 else 0 := by
      intro k i j
      show (skewSymmetric 0 + 1 : Matrix (Fin 3) (Fin 3) ℝ) i j = _
      fin_cases i <;> fin_cases j <;> simp [skewSymmetric]
    have hD' : ∀ (k : Fin threePoints.length) (i j : Fin 3), allDzdx (pointLin 0 0) threePoints (.inr i) (k, .inr j) = if i = j then -1 else 0 := by
      intro k i j
      show (-1 : Matrix (Fin 3) (Fin 3) ℝ) i j = _
      fin_cases i <;> fin_cases j <;> simp
    have hu : ∀ k : Fin threePoints.length, (threePoints.get k).1.unit = ![3 / 5, 4 / 5, 0] ∧
        (threePoints.get k).2.unit = ![3 / 5, 4 / 5, 0] := by
      intro k
      match k with
      | ⟨0, _⟩ => exact ⟨rfl, rfl⟩
      | ⟨1, _⟩ => exact ⟨rfl, rfl⟩
      | ⟨2, _⟩ => exact ⟨rfl, rfl⟩
      | ⟨n + 3, h⟩ => exact absurd h (by show ¬ n + 3 < 3; omega)
    have hS : ∀ (k k' : Fin threePoints.length) (x y : Fin 3 ⊕ Fin 3), sigmaRange 1 threePoints (k, x) (k', y) =
        if k = k' then fromBlocks (vecMulVec ![3 / 5, 4 / 5, 0] ![3 / 5, 4 / 5, 0]) 0 0
          (vecMulVec ![3 / 5, 4 / 5, 0] ![3 / 5, 4 / 5, 0]) x y else 0 := by
      intro k k' x y
      unfold sigmaRange
      dsimp only
      rw [(hu k).1, (hu k).2, one_smul]
    have hS' : ∀ (k k' : Fin threePoints.length) (x y : Fin 3 ⊕ Fin 3), sigmaRangeBias 1 0 threePoints (k, x) (k', y) =
        if k = k' ∧ x = y then Sum.elim ![3 / 5, 4 / 5, 0] ![3 / 5, 4 / 5, 0] x * Sum.elim ![3 / 5, 4 / 5, 0] ![3 / 5, 4 / 5, 0] x
        else 0 := by
      intro k k' x y
      unfold sigmaRangeBias
      dsimp only
      rw [zero_smul, zero_add, diagonal_apply, vecMulVec_apply, one_mul]
      unfold unitVectors
      dsimp only
      rw [(hu k).1, (hu k).2]
      simp only [Prod.mk.injEq]
    simp only [Matrix.mul_apply, Fintype.sum_prod_type, Fintype.sum_sum_type, transpose_apply, hD, hD', threePoints_sum, Fin.sum_univ_three] at h
    simp only [hS, hS', Sum.elim_inl, Sum.elim_inr, Sum.inl.injEq, Sum.inr.injEq, reduceCtorEq, and_false, if_false] at h
    simp [Fin.ext_iff] at h
    norm_num at h

end Icp

end Serpent
