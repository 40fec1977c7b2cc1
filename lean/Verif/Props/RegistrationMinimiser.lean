import Verif.Lemmas.Minimiser
import Verif.Props.IcpNonlinear
import Mathlib.Analysis.SpecialFunctions.Sqrt
import Mathlib.Analysis.SpecialFunctions.Trigonometric.Deriv
import Mathlib.Analysis.Calculus.ContDiff.Operations

/-!
# The covariances of a registration are those of the pose that minimises the cost (C66)
-/

namespace Serpent

namespace Icp

open Matrix Function Topology EigenExt Lidar

/-! ### The costs are smooth -/

theorem pointLinCost_contDiff : ContDiff ℝ 2 pointLinCost := by
  unfold pointLinCost linearResidual
  simp only [dotProduct, Fin.sum_univ_three, cross_apply, Pi.add_apply, Pi.sub_apply, rOf, tOf, pOf, qOf]
  simp only [Matrix.cons_val]
  fun_prop

theorem planeLinCost_contDiff (n : Fin 3 → ℝ) : ContDiff ℝ 2 (planeLinCost n) := by
  unfold planeLinCost linearResidual
  simp only [dotProduct, Fin.sum_univ_three, cross_apply, Pi.add_apply, Pi.sub_apply, rOf, tOf, pOf, qOf]
  simp only [Matrix.cons_val]
  fun_prop

theorem len_contDiffAt {w : Var → ℝ} (h : rOf w ≠ 0) : ContDiffAt ℝ 2 (fun w => len (rOf w)) w := by
  have h0 := len_ne_zero h
  unfold len at h0 ⊢
  refine ContDiffAt.sqrt ?_ ?_
  · unfold rOf
    fun_prop
  · intro e
    rw [e] at h0
    exact h0 Real.sqrt_zero

theorem rotE_contDiffAt {w : Var → ℝ} (h : rOf w ≠ 0) (k j : Fin 3) :
    ContDiffAt ℝ 2 (fun w : Var → ℝ => rotE (cof (len (rOf w))) (rOf w) k j) w := by
  have h0 := len_ne_zero h
  have h1 := len_contDiffAt h
  have hr : ∀ a, ContDiffAt ℝ 2 (fun w : Var → ℝ => rOf w a) w := fun a => by unfold rOf; fun_prop
  have hs : ContDiffAt ℝ 2 (fun w : Var → ℝ => sk (rOf w) k j) w := by
    unfold sk
    fin_cases k <;> fin_cases j <;> simp <;> first | exact contDiffAt_const | exact hr _ | exact (hr _).neg
  unfold rotE cof coefs
  dsimp only
  refine ((ContDiffAt.mul (h1.cos) contDiffAt_const).add ((h1.sin.div h1 h0).mul hs)).add
    (((contDiffAt_const.sub h1.cos).div (h1.pow 2) (pow_ne_zero 2 h0)).mul ((hr k).mul (hr j)))

theorem residual_contDiffAt {w : Var → ℝ} (h : rOf w ≠ 0) (k : Fin 3) : ContDiffAt ℝ 2 (fun w => residual w k) w := by
  have he : (fun w => residual w k) =ᶠ[𝓝 w] fun w =>
      ∑ l, rotE (cof (len (rOf w))) (rOf w) k l * pOf w l + tOf w k - qOf w k := by
    filter_upwards [eventually_ne h] with y hy
    exact residual_eq hy k
  refine ContDiffAt.congr_of_eventuallyEq ?_ he
  refine (ContDiffAt.add (ContDiffAt.sum fun l _ => (rotE_contDiffAt h k l).mul ?_) ?_).sub ?_
  · unfold pOf; fun_prop
  · unfold tOf; fun_prop
  · unfold qOf; fun_prop

theorem pointCost_contDiffAt {w : Var → ℝ} (h : rOf w ≠ 0) : ContDiffAt ℝ 2 pointCost w := by
  unfold pointCost dotProduct
  exact ContDiffAt.sum fun k _ => (residual_contDiffAt h k).mul (residual_contDiffAt h k)

theorem planeCost_contDiffAt (n : Fin 3 → ℝ) {w : Var → ℝ} (h : rOf w ≠ 0) : ContDiffAt ℝ 2 (planeCost n) w := by
  unfold planeCost dotProduct
  exact (ContDiffAt.sum fun k _ => contDiffAt_const.mul (residual_contDiffAt h k)).pow 2

theorem totalCost_contDiffAt {n : Nat} {cost : Fin n → (Var → ℝ) → ℝ} {w : AllVar n → ℝ}
    (h : ∀ k, ContDiffAt ℝ 2 (cost k) (varsOf w k)) : ContDiffAt ℝ 2 (totalCost cost) w := by
  unfold totalCost
  refine ContDiffAt.sum fun k _ => ?_
  have hv : ContDiffAt ℝ 2 (fun w : AllVar n → ℝ => varsOf w k) w := by
    rw [contDiffAt_pi]
    intro v
    unfold varsOf
    rcases v with v | v
    · simp only [Sum.elim_inl]; fun_prop
    · simp only [Sum.elim_inr]; fun_prop
  exact (h k).comp w hv

/-! ### The estimate -/

/-- The pose of the cost, from a rotation vector and a translation. -/
def poseVars (r t : Fin 3 → ℝ) : Fin 3 ⊕ Fin 3 → ℝ := Sum.elim r t

/-- The measured points of a list of correspondences. -/
def dataOf (l : List (Pt ℝ × Pt ℝ)) : Meas l → ℝ := fun k => Sum.elim (l.get k.1).1.pos (l.get k.1).2.pos k.2

/-- The covariances of the model `M` are those of the estimate for the cost `F`: the poses that minimise the cost near `(r, t)` are a
differentiable function of the points near the measured ones; with its derivative `A`, errors of the points with covariance `S` give
the pose the covariance `A S Aᵀ` to first order, and this is what is computed, for independent errors of all coordinates, for
independent errors of all ranges, and for a common error of all ranges. -/
def CovarianceOfEstimate (M : IcpModel ℝ) (l : List (Pt ℝ × Pt ℝ)) (F : (AllVar l.length → ℝ) → ℝ) (r t : Fin 3 → ℝ) : Prop :=
  ∃ x A, IsEstimate F (poseVars r t) (dataOf l) x ∧ HasJacobianAt x A (dataOf l) ∧ ∀ v b : ℝ,
    censiIid M v l = some (propagated A (v • 1)) ∧
    censiRange M v l = some (propagated A (rangeCovariance v (fun k => (l.get k).1.unit) (fun k => (l.get k).2.unit))) ∧
    censiRangeBias M 0 b l = some (propagated A (rangeBiasCovariance 0 b (fun k => (l.get k).1.unit) (fun k => (l.get k).2.unit)))

theorem covarianceOfEstimate {M : IcpModel ℝ} (hM : Symmetric M) {l : List (Pt ℝ × Pt ℝ)} {F : (AllVar l.length → ℝ) → ℝ}
    {r t : Fin 3 → ℝ} (hF : ContDiffAt ℝ 2 F (allVars r t (fun k => (l.get k).1.pos) (fun k => (l.get k).2.pos)))
    (hd : ∀ (i j : Fin 3 ⊕ Fin 3) (k : Fin l.length),
      let w := allVars r t (fun k => (l.get k).1.pos) (fun k => (l.get k).2.pos)
      IsSecondPartial F (.inl i) (.inl j) w (2 * sumDx2 M l i j) ∧ IsSecondPartial F (.inl i) (.inr (k, j)) w (2 * allDzdx M l i (k, j)))
    (hdet : IsUnit (sumDx2 M l).det) (hm : Minimises F (poseVars r t) (dataOf l)) : CovarianceOfEstimate M l F r t := by
  have hne : l ≠ [] := by
    rintro rfl
    have h1 := (C66_defined M [] 0 0).1.2 hdet
    rw [(C66_defined M [] 0 0).2.2.2.2 rfl] at h1
    cases h1
  have k0 : Fin l.length := ⟨0, List.length_pos_iff.2 hne⟩
  have h2 : IsUnit ((2 : ℝ) • sumDx2 M l).det := by
    rw [det_smul]
    exact IsUnit.mul ((isUnit_iff_ne_zero.2 two_ne_zero).pow _) hdet
  obtain ⟨x, h, hj⟩ := estimate (F := F) (x₀ := poseVars r t) (z₀ := dataOf l) (Fxx := (2 : ℝ) • sumDx2 M l)
    (Fxz := (2 : ℝ) • allDzdx M l) hF (fun i j => (hd i j k0).1) (fun i k => (hd i k.2 k.1).2) h2 hm
  exact ⟨x, _, h, hj, fun v b => ⟨C66_censi_iid hM l hdet v, C66_censi_range hM l hdet v, C67_bias hM l hdet b⟩⟩

/-- C66. The linearised point-to-point model: at a pose that minimises the sum of the squared residuals, with an invertible Hessian,
the computed covariances are those of the pose that minimises the cost. -/
theorem C66_minimiser_linear_point (r t : Fin 3 → ℝ) (l : List (Pt ℝ × Pt ℝ)) (hdet : IsUnit (sumDx2 (pointLin r t) l).det)
    (hm : Minimises (totalCost fun _ : Fin l.length => pointLinCost) (poseVars r t) (dataOf l)) :
    CovarianceOfEstimate (pointLin r t) l (totalCost fun _ => pointLinCost) r t :=
  covarianceOfEstimate (pointLin_symmetric r t) (totalCost_contDiffAt fun _ => pointLinCost_contDiff.contDiffAt)
    (fun i j k => C65_total_point r t l i j k) hdet hm

/-- C66. The linearised point-to-plane model. -/
theorem C66_minimiser_linear_plane (r t : Fin 3 → ℝ) (l : List (Pt ℝ × Pt ℝ)) (hdet : IsUnit (sumDx2 (planeLin r t) l).det)
    (hm : Minimises (totalCost fun k : Fin l.length => planeLinCost (l.get k).2.normal) (poseVars r t) (dataOf l)) :
    CovarianceOfEstimate (planeLin r t) l (totalCost fun k => planeLinCost (l.get k).2.normal) r t :=
  covarianceOfEstimate (planeLin_symmetric r t) (totalCost_contDiffAt fun _ => (planeLinCost_contDiff _).contDiffAt)
    (fun i j k => C65_total_plane r t l i j k) hdet hm

theorem rOf_varsOf_allVars {n : Nat} (r t : Fin 3 → ℝ) (p q : Fin n → Fin 3 → ℝ) (k : Fin n) :
    rOf (varsOf (allVars r t p q) k) = r := by
  rw [varsOf_allVars]
  rfl

/-- C66. The nonlinear point-to-point model, for every rigid result of a registration that rotates: at the rotation vector of the
result, if it minimises the sum of the squared residuals and the Hessian is invertible. -/
theorem C66_minimiser_point {T : Iso ℝ} (hT : Rigid T) (h1 : T.R ≠ 1) (l : List (Pt ℝ × Pt ℝ)) :
    let r := (componentsOfTransform T).r
    ∃ M, pointNonlin (componentsOfTransform T) = some M ∧ expRotation r = T.R ∧
      (IsUnit (sumDx2 M l).det → Minimises (totalCost fun _ : Fin l.length => pointCost) (poseVars r T.t) (dataOf l) →
        CovarianceOfEstimate M l (totalCost fun _ => pointCost) r T.t) := by
  obtain ⟨M, hM, hr, hd⟩ := C71_total_point hT h1 l
  refine ⟨M, hM, hr, fun hdet hm => covarianceOfEstimate (nonlin_symmetric hT (.inl hM)) ?_ (fun i j k => hd i j k) hdet hm⟩
  refine totalCost_contDiffAt fun k => pointCost_contDiffAt ?_
  rw [rOf_varsOf_allVars]
  exact rotation_ne hT h1

/-- C66. The nonlinear point-to-plane model. -/
theorem C66_minimiser_plane {T : Iso ℝ} (hT : Rigid T) (h1 : T.R ≠ 1) (l : List (Pt ℝ × Pt ℝ)) :
    let r := (componentsOfTransform T).r
    ∃ M, planeNonlin (componentsOfTransform T) = some M ∧ expRotation r = T.R ∧
      (IsUnit (sumDx2 M l).det →
        Minimises (totalCost fun k : Fin l.length => planeCost (l.get k).2.normal) (poseVars r T.t) (dataOf l) →
        CovarianceOfEstimate M l (totalCost fun k => planeCost (l.get k).2.normal) r T.t) := by
  obtain ⟨M, hM, hr, hd⟩ := C71_total_plane hT h1 l
  refine ⟨M, hM, hr, fun hdet hm => covarianceOfEstimate (nonlin_symmetric hT (.inr hM)) ?_ (fun i j k => hd i j k) hdet hm⟩
  refine totalCost_contDiffAt fun k => planeCost_contDiffAt _ ?_
  rw [rOf_varsOf_allVars]
  exact rotation_ne hT h1

/-! ### Linear least squares -/

section
variable {W X : Type} [Fintype W] [Fintype X] [DecidableEq W] [DecidableEq X] (J : Matrix W X ℝ)

/-- The sum of the squares of `J x + b`. -/
def squares (b : W → ℝ) (x : X → ℝ) : ℝ := (J *ᵥ x + b) ⬝ᵥ (J *ᵥ x + b)

omit [DecidableEq W] [DecidableEq X] in
theorem squares_add (b : W → ℝ) (x u : X → ℝ) :
    squares J b (x + u) = squares J b x + 2 * (u ⬝ᵥ (Jᵀ *ᵥ (J *ᵥ x + b))) + (J *ᵥ u) ⬝ᵥ (J *ᵥ u) := by
  have h : u ⬝ᵥ (Jᵀ *ᵥ (J *ᵥ x + b)) = (J *ᵥ u) ⬝ᵥ (J *ᵥ x + b) := by
    rw [dotProduct_mulVec, vecMul_transpose]
  unfold squares
  rw [h, mulVec_add, show J *ᵥ x + J *ᵥ u + b = (J *ᵥ x + b) + J *ᵥ u from by abel]
  generalize J *ᵥ x + b = c
  rw [dotProduct_add, add_dotProduct, add_dotProduct, dotProduct_comm c (J *ᵥ u)]
  ring

omit [DecidableEq W] [DecidableEq X] in
/-- The minimisers solve the normal equations. -/
theorem squares_min_iff (b : W → ℝ) (x : X → ℝ) : (∀ y, squares J b x ≤ squares J b y) ↔ Jᵀ *ᵥ (J *ᵥ x + b) = 0 := by
  constructor
  · intro h
    set g := Jᵀ *ᵥ (J *ᵥ x + b) with hg
    have h1 : ∀ s : ℝ, 0 ≤ 2 * s * (g ⬝ᵥ g) + s ^ 2 * ((J *ᵥ g) ⬝ᵥ (J *ᵥ g)) := by
      intro s
      have := h (x + s • g)
      rw [squares_add, ← hg, mulVec_smul, smul_dotProduct, smul_dotProduct, dotProduct_smul] at this
      simp only [smul_eq_mul] at this
      linarith
    have hq : 0 ≤ (J *ᵥ g) ⬝ᵥ (J *ᵥ g) := Finset.sum_nonneg fun _ _ => mul_self_nonneg _
    have hgg : 0 ≤ g ⬝ᵥ g := Finset.sum_nonneg fun _ _ => mul_self_nonneg _
    have h2 : g ⬝ᵥ g = 0 := by
      by_contra hn
      have hp : 0 < g ⬝ᵥ g := lt_of_le_of_ne hgg (Ne.symm hn)
      generalize (J *ᵥ g) ⬝ᵥ (J *ᵥ g) = q at h1 hq
      generalize g ⬝ᵥ g = a at h1 hp
      have h3 := h1 (-(a / (q + 1)))
      have h4 : 2 * -(a / (q + 1)) * a + (-(a / (q + 1))) ^ 2 * q = a ^ 2 / (q + 1) ^ 2 * (-q - 2) := by
        field_simp
        ring
      rw [h4] at h3
      have h5 : 0 < a ^ 2 / (q + 1) ^ 2 := by positivity
      nlinarith
    exact dotProduct_self_eq_zero.1 h2
  · intro h y
    have := squares_add J b x (y - x)
    rw [h, dotProduct_zero, add_sub_cancel] at this
    have hq : 0 ≤ (J *ᵥ (y - x)) ⬝ᵥ (J *ᵥ (y - x)) := Finset.sum_nonneg fun _ _ => mul_self_nonneg _
    linarith

/-- How errors of the residuals move the minimiser, and its covariance. -/
theorem least_squares (hdet : IsUnit (Jᵀ * J).det) : ∃ A : Matrix X W ℝ,
    (∀ b x e, (∀ y, squares J b x ≤ squares J b y) → ∀ y, squares J (b + e) y ≥ squares J (b + e) (x + A *ᵥ e)) ∧
    ∀ v : ℝ, propagated A (v • 1) = v • (Jᵀ * J)⁻¹ := by
  refine ⟨-((Jᵀ * J)⁻¹ * Jᵀ), fun b x e h y => ?_, fun v => ?_⟩
  · rw [squares_min_iff] at h
    refine (squares_min_iff J _ _).2 ?_ y
    have e1 : Jᵀ *ᵥ (J *ᵥ (-((Jᵀ * J)⁻¹ * Jᵀ) *ᵥ e)) = -(Jᵀ *ᵥ e) := by
      rw [mulVec_mulVec, mulVec_mulVec, Matrix.mul_neg, ← Matrix.mul_assoc, mul_nonsing_inv _ hdet, Matrix.one_mul, neg_mulVec]
    have e2 : J *ᵥ (x + -((Jᵀ * J)⁻¹ * Jᵀ) *ᵥ e) + (b + e) = (J *ᵥ x + b) + J *ᵥ (-((Jᵀ * J)⁻¹ * Jᵀ) *ᵥ e) + e := by
      rw [mulVec_add]
      abel
    rw [e2, mulVec_add, mulVec_add, h, e1]
    simp
  · unfold propagated
    have ht : (Jᵀ * J)ᵀ = Jᵀ * J := by rw [transpose_mul, transpose_transpose]
    rw [Matrix.mul_smul, Matrix.mul_one, Matrix.smul_mul, transpose_neg, Matrix.neg_mul, Matrix.mul_neg, neg_neg, transpose_mul, transpose_transpose,
      transpose_nonsing_inv, ht, Matrix.mul_assoc, ← Matrix.mul_assoc Jᵀ, mul_nonsing_inv _ hdet, Matrix.mul_one]

end

/-- The cost of the linearised point-to-point model with errors `e` of the residuals. -/
def pointCostWithErrors (l : List (Pt ℝ × Pt ℝ)) (e : Fin l.length × Fin 3 → ℝ) (x : Fin 3 ⊕ Fin 3 → ℝ) : ℝ :=
  ∑ k, ∑ a, (linearResidual (varsOf (Sum.elim x (dataOf l)) k) a + e (k, a)) ^ 2

/-- The cost of the linearised point-to-plane model with errors `e` of the residuals. -/
def planeCostWithErrors (l : List (Pt ℝ × Pt ℝ)) (e : Fin l.length → ℝ) (x : Fin 3 ⊕ Fin 3 → ℝ) : ℝ :=
  ∑ k, ((l.get k).2.normal ⬝ᵥ linearResidual (varsOf (Sum.elim x (dataOf l)) k) + e k) ^ 2

/-- The Jacobian of the residuals of the linearised point-to-point model. -/
def pointJacobian (l : List (Pt ℝ × Pt ℝ)) : Matrix (Fin l.length × Fin 3) (Fin 3 ⊕ Fin 3) ℝ :=
  fun k => fromCols (-skewSymmetric (l.get k.1).1.pos) 1 k.2

/-- The Jacobian of the residuals of the linearised point-to-plane model. -/
def planeJacobian (l : List (Pt ℝ × Pt ℝ)) : Matrix (Fin l.length) (Fin 3 ⊕ Fin 3) ℝ :=
  fun k => Sum.elim (crossProduct (l.get k).1.pos (l.get k).2.normal) (l.get k).2.normal

theorem pointJacobian_square (r t : Fin 3 → ℝ) (l : List (Pt ℝ × Pt ℝ)) :
    (pointJacobian l)ᵀ * pointJacobian l = sumDx2 (pointLin r t) l := by
  rw [sumDx2_eq]
  funext i j
  rw [Matrix.sum_apply, Matrix.mul_apply, Fintype.sum_prod_type]
  refine Finset.sum_congr rfl fun k _ => ?_
  show _ = pointLinDx2 _ i j
  rw [pointLin_square, Matrix.mul_apply]
  rfl

theorem planeJacobian_square (r t : Fin 3 → ℝ) (l : List (Pt ℝ × Pt ℝ)) :
    (planeJacobian l)ᵀ * planeJacobian l = sumDx2 (planeLin r t) l := by
  rw [sumDx2_eq]
  funext i j
  rw [Matrix.sum_apply, Matrix.mul_apply]
  refine Finset.sum_congr rfl fun k _ => ?_
  show _ = planeLinDx2 _ _ i j
  rw [planeLin_square]
  rfl

theorem linearResidual_eq (l : List (Pt ℝ × Pt ℝ)) (x : Fin 3 ⊕ Fin 3 → ℝ) (k : Fin l.length) (a : Fin 3) :
    linearResidual (varsOf (Sum.elim x (dataOf l)) k) a =
      (pointJacobian l *ᵥ x) (k, a) + ((l.get k).1.pos a - (l.get k).2.pos a) := by
  simp only [linearResidual, rOf, tOf, pOf, qOf, varsOf, dataOf, pointJacobian, mulVec, dotProduct, Fintype.sum_sum_type,
    fromCols_apply_inl, fromCols_apply_inr, Fin.sum_univ_three, Pi.add_apply, Pi.sub_apply, cross_apply, Sum.elim_inl, Sum.elim_inr]
  rcases (show a = 0 ∨ a = 1 ∨ a = 2 by fin_cases a <;> simp) with rfl | rfl | rfl <;> simp [skewSymmetric] <;> ring

theorem pointCostWithErrors_eq (l : List (Pt ℝ × Pt ℝ)) (e : Fin l.length × Fin 3 → ℝ) (x : Fin 3 ⊕ Fin 3 → ℝ) :
    pointCostWithErrors l e x = squares (pointJacobian l) ((fun k => (l.get k.1).1.pos k.2 - (l.get k.1).2.pos k.2) + e) x := by
  unfold pointCostWithErrors squares dotProduct
  rw [Fintype.sum_prod_type]
  refine Finset.sum_congr rfl fun k _ => Finset.sum_congr rfl fun a _ => ?_
  rw [linearResidual_eq, Pi.add_apply, Pi.add_apply]
  ring

theorem planeCostWithErrors_eq (l : List (Pt ℝ × Pt ℝ)) (e : Fin l.length → ℝ) (x : Fin 3 ⊕ Fin 3 → ℝ) :
    planeCostWithErrors l e x = squares (planeJacobian l) ((fun k => (l.get k).2.normal ⬝ᵥ ((l.get k).1.pos - (l.get k).2.pos)) + e) x := by
  unfold planeCostWithErrors squares
  rw [dotProduct]
  refine Finset.sum_congr rfl fun k _ => ?_
  have h : (l.get k).2.normal ⬝ᵥ linearResidual (varsOf (Sum.elim x (dataOf l)) k) =
      (planeJacobian l *ᵥ x) k + (l.get k).2.normal ⬝ᵥ ((l.get k).1.pos - (l.get k).2.pos) := by
    simp only [dotProduct, linearResidual_eq, pointJacobian, planeJacobian, mulVec, Fintype.sum_sum_type, fromCols_apply_inl,
      fromCols_apply_inr, Fin.sum_univ_three, Pi.sub_apply, cross_apply, Sum.elim_inl, Sum.elim_inr]
    simp [skewSymmetric]
    ring
  rw [h, Pi.add_apply, Pi.add_apply]
  ring

/-- C66. The linear least squares covariance of the linearised point-to-point model: errors `e` of the coordinates of the residuals
move the pose that minimises the cost by `A e`, and the computed covariance is that of `A e` for independent errors. -/
theorem C66_lls_point (r t : Fin 3 → ℝ) (l : List (Pt ℝ × Pt ℝ)) (hdet : IsUnit (sumDx2 (pointLin r t) l).det) :
    ∃ A : Matrix (Fin 3 ⊕ Fin 3) (Fin l.length × Fin 3) ℝ,
      (∀ x, (∀ y, pointCostWithErrors l 0 x ≤ pointCostWithErrors l 0 y) →
        ∀ e y, pointCostWithErrors l e (x + A *ᵥ e) ≤ pointCostWithErrors l e y) ∧
      ∀ v, llsIid (pointLin r t) v l = some (propagated A (v • 1)) := by
  obtain ⟨A, h1, h2⟩ := least_squares (pointJacobian l) (by rw [pointJacobian_square r t]; exact hdet)
  refine ⟨A, fun x hx e y => ?_, fun v => ?_⟩
  · rw [pointCostWithErrors_eq, pointCostWithErrors_eq]
    refine h1 _ x e (fun y => ?_) y
    have := hx y
    rwa [pointCostWithErrors_eq, pointCostWithErrors_eq, add_zero] at this
  · rw [h2, pointJacobian_square r t]
    unfold llsIid
    rw [inverse_some hdet]
    rfl

/-- C66. The same for the linearised point-to-plane model, with one residual for each correspondence. -/
theorem C66_lls_plane (r t : Fin 3 → ℝ) (l : List (Pt ℝ × Pt ℝ)) (hdet : IsUnit (sumDx2 (planeLin r t) l).det) :
    ∃ A : Matrix (Fin 3 ⊕ Fin 3) (Fin l.length) ℝ,
      (∀ x, (∀ y, planeCostWithErrors l 0 x ≤ planeCostWithErrors l 0 y) →
        ∀ e y, planeCostWithErrors l e (x + A *ᵥ e) ≤ planeCostWithErrors l e y) ∧
      ∀ v, llsIid (planeLin r t) v l = some (propagated A (v • 1)) := by
  obtain ⟨A, h1, h2⟩ := least_squares (planeJacobian l) (by rw [planeJacobian_square r t]; exact hdet)
  refine ⟨A, fun x hx e y => ?_, fun v => ?_⟩
  · rw [planeCostWithErrors_eq, planeCostWithErrors_eq]
    refine h1 _ x e (fun y => ?_) y
    have := hx y
    rwa [planeCostWithErrors_eq, planeCostWithErrors_eq, add_zero] at this
  · rw [h2, planeJacobian_square r t]
    unfold llsIid
    rw [inverse_some hdet]
    rfl

/-! ### The hypotheses are met -/

/-- Three points that are matched with themselves: the pose zero is a minimiser, with an invertible Hessian. -/
example : IsUnit (sumDx2 (pointLin 0 0) threePoints).det ∧
    Minimises (totalCost fun _ : Fin threePoints.length => pointLinCost) (poseVars 0 0) (dataOf threePoints) ∧
    ∀ y, pointCostWithErrors threePoints 0 (poseVars 0 0) ≤ pointCostWithErrors threePoints 0 y := by
  have h0 : ∀ k : Fin threePoints.length, (threePoints.get k).1.pos = (threePoints.get k).2.pos := by
    intro k
    fin_cases k <;> rfl
  have hr : ∀ (k : Fin threePoints.length) (a : Fin 3),
      linearResidual (varsOf (Sum.elim (poseVars 0 0) (dataOf threePoints)) k) a = 0 := by
    intro k a
    have hz : poseVars 0 0 = 0 := by funext i; cases i <;> rfl
    rw [linearResidual_eq, h0 k, sub_self, hz, mulVec_zero]
    simp
  refine ⟨threePoints_det 0 0, Filter.Eventually.of_forall fun y => ?_, fun y => ?_⟩
  · dsimp only
    have e : totalCost (fun _ : Fin threePoints.length => pointLinCost) (Sum.elim (poseVars 0 0) (dataOf threePoints)) = 0 := by
      unfold totalCost pointLinCost dotProduct
      simp only [hr, mul_zero, Finset.sum_const_zero]
    rw [e]
    refine Finset.sum_nonneg fun _ _ => ?_
    unfold pointLinCost
    exact Finset.sum_nonneg fun _ _ => mul_self_nonneg _
  · have e : pointCostWithErrors threePoints 0 (poseVars 0 0) = 0 := by
      unfold pointCostWithErrors
      simp [hr]
    rw [e]
    exact Finset.sum_nonneg fun _ _ => Finset.sum_nonneg fun _ _ => sq_nonneg _

/-- No change of the rotation vector of half a turn leaves three entries of the rotation unchanged. -/
theorem halfTurn_kernel (u : Fin 3 → ℝ)
    (h12 : ∑ b, dRotE (cof (len (componentsOfTransform halfTurn).r)) (componentsOfTransform halfTurn).r b 1 2 * u b = 0)
    (h10 : ∑ b, dRotE (cof (len (componentsOfTransform halfTurn).r)) (componentsOfTransform halfTurn).r b 1 0 * u b = 0)
    (h20 : ∑ b, dRotE (cof (len (componentsOfTransform halfTurn).r)) (componentsOfTransform halfTurn).r b 2 0 * u b = 0) (b : Fin 3) :
    u b = 0 := by
  have hlen := (Of.ofTransform halfTurn_rigid).a
  obtain ⟨ha, hc, hs, h0, hr1, hr2, ht⟩ := halfTurn_components
  generalize (componentsOfTransform halfTurn).r = r at *
  have hpi := Real.pi_ne_zero
  have hcf : cof (len r) = ⟨-1, 0, 2 / Real.pi ^ 2, -1 / Real.pi ^ 2, -4 / Real.pi ^ 4, 3 / Real.pi ^ 4,
      (16 - Real.pi ^ 2) / Real.pi ^ 6⟩ := by
    have hl : len r = Real.pi := by rw [← ha, hlen]
    unfold cof coefs
    rw [hl, Real.cos_pi, Real.sin_pi]
    congr 1 <;> field_simp <;> ring
  have hρ : r 0 ≠ 0 := by
    intro h
    rw [h] at h0
    exact hpi (pow_eq_zero_iff two_ne_zero |>.1 (by linarith))
  rw [hcf] at h12 h10 h20
  simp only [Fin.sum_univ_three, dRotE, sk12, sk10, sk20, dl_same, dl01, dl02, dl10, dl12, dl20, dl21, hr1, hr2] at h12 h10 h20
  simp at h12 h10 h20
  fin_cases b
  · exact h12.resolve_left hρ
  · exact h10.resolve_left hρ
  · exact h20.resolve_left hρ

/-- A point that is matched with its image by half a turn. -/
def turned (p : Fin 3 → ℝ) : Pt ℝ × Pt ℝ := (⟨p, 0, 0⟩, ⟨halfTurn.R *ᵥ p, 0, 0⟩)

/-- Four points that are matched with their images by half a turn. -/
def fourTurned : List (Pt ℝ × Pt ℝ) := [turned 0, turned ![1, 0, 0], turned ![0, 1, 0], turned ![0, 0, 1]]

theorem fourTurned_residual (k : Fin fourTurned.length) :
    residual (vars (componentsOfTransform halfTurn).r halfTurn.t (fourTurned.get k).1.pos (fourTurned.get k).2.pos) = 0 := by
  have he : expRotation (componentsOfTransform halfTurn).r = halfTurn.R := (C81_from_transform halfTurn_rigid).2.2.1
  have hq : (fourTurned.get k).2.pos = halfTurn.R *ᵥ (fourTurned.get k).1.pos := by
    fin_cases k <;> rfl
  show expRotation (componentsOfTransform halfTurn).r *ᵥ (fourTurned.get k).1.pos + halfTurn.t - (fourTurned.get k).2.pos = 0
  rw [he, hq]
  funext i
  simp [halfTurn]

/-- The derivatives of the residuals of the four points. -/
noncomputable def fourTurnedJacobian (r : Fin 3 → ℝ) : Matrix (Fin fourTurned.length × Fin 3) (Fin 3 ⊕ Fin 3) ℝ := fun k i =>
  nlD k.2 (.inl i) (vars r halfTurn.t (fourTurned.get k.1).1.pos (fourTurned.get k.1).2.pos)

/-- `C66_minimiser_point`: four points that are turned by half a turn, with a registration that finds it. -/
example : ∃ M, Rigid halfTurn ∧ halfTurn.R ≠ 1 ∧ pointNonlin (componentsOfTransform halfTurn) = some M ∧
    IsUnit (sumDx2 M fourTurned).det ∧
    Minimises (totalCost fun _ : Fin fourTurned.length => pointCost) (poseVars (componentsOfTransform halfTurn).r halfTurn.t)
      (dataOf fourTurned) := by
  have h1 : halfTurn.R ≠ 1 := by
    intro h
    have := congrFun (congrFun h 1) 1
    simp [halfTurn] at this
    norm_num at this
  obtain ⟨M, hM, hr, hd⟩ := C71_total_point halfTurn_rigid h1 fourTurned
  have hne := rotation_ne halfTurn_rigid h1
  have hres := fourTurned_residual
  have hker := halfTurn_kernel
  generalize (componentsOfTransform halfTurn).r = r at hr hd hne hres hker ⊢
  refine ⟨M, halfTurn_rigid, h1, hM, ?_, ?_⟩
  · let w := allVars r halfTurn.t (fun k => (fourTurned.get k).1.pos) (fun k => (fourTurned.get k).2.pos)
    have hF : ContDiffAt ℝ 2 (totalCost fun _ : Fin fourTurned.length => pointCost) w :=
      totalCost_contDiffAt fun k => pointCost_contDiffAt (by rw [rOf_varsOf_allVars]; exact hne)
    generalize hBdef : fourTurnedJacobian r = B
    have hB : sumDx2 M fourTurned = Bᵀ * B := by
      funext i j
      have e1 := isSecondPartial_eq hF (hd i j ⟨0, by simp [fourTurned]⟩).1
      have e2 : IsSecondPartial (totalCost fun _ : Fin fourTurned.length => pointCost) (.inl i) (.inl j) w
          (∑ k : Fin fourTurned.length, 2 * ∑ a, B (k, a) i * B (k, a) j) := by
        refine totalCost_pose fun k => ?_
        rw [varsOf_allVars]
        have := point_second (w := vars r halfTurn.t (fourTurned.get k).1.pos (fourTurned.get k).2.pos) hne i (.inl j)
        simp only [hres, Pi.zero_apply, zero_mul, add_zero] at this
        rw [← hBdef]
        exact this
      have e3 := isSecondPartial_eq hF e2
      rw [← e3, ← Finset.mul_sum] at e1
      have e4 := mul_left_cancel₀ two_ne_zero e1
      rw [e4, Matrix.mul_apply, Fintype.sum_prod_type]
      rfl
    have hinj : Function.Injective B.mulVec := by
      rw [← Matrix.coe_mulVecLin, injective_iff_map_eq_zero]
      intro u hu
      have hk : ∀ (k : Fin fourTurned.length) (a : Fin 3),
          (∑ b, (∑ l, dRotE (cof (len r)) r b a l * (fourTurned.get k).1.pos l) * u (.inl b)) + u (.inr a) = 0 := by
        intro k a
        have := congrFun hu (k, a)
        rw [← hBdef] at this
        simp only [mulVecLin_apply, mulVec, dotProduct, Fintype.sum_sum_type, Pi.zero_apply] at this
        rw [← this]
        congr 1
        show _ = ∑ b, dl b a * u (.inr b)
        simp [dl]
      have ht0 : ∀ a, u (.inr a) = 0 := by
        intro a
        have := hk ⟨0, by simp [fourTurned]⟩ a
        simpa [fourTurned, turned] using this
      have hcol : ∀ a l, ∑ b, dRotE (cof (len r)) r b a l * u (.inl b) = 0 := by
        intro a l
        have := hk ⟨l.val + 1, by simp only [fourTurned, List.length_cons, List.length_nil]; omega⟩ a
        rw [ht0, add_zero] at this
        rw [← this]
        refine Finset.sum_congr rfl fun b _ => ?_
        congr 1
        fin_cases l <;> simp [fourTurned, turned, Fin.sum_univ_three]
      have hu0 := hker (fun b => u (.inl b)) (hcol 1 2) (hcol 1 0) (hcol 2 0)
      funext i
      rcases i with i | i
      · exact hu0 i
      · exact ht0 i
    rw [hB, ← conjTranspose_eq_transpose_of_trivial]
    exact (isUnit_iff_isUnit_det _).1 (PosDef.conjTranspose_mul_self B hinj).isUnit
  · refine Filter.Eventually.of_forall fun y => ?_
    have e : totalCost (fun _ : Fin fourTurned.length => pointCost) (Sum.elim (poseVars r halfTurn.t) (dataOf fourTurned)) = 0 := by
      refine Finset.sum_eq_zero fun k _ => ?_
      have hv : varsOf (Sum.elim (poseVars r halfTurn.t) (dataOf fourTurned)) k =
          vars r halfTurn.t (fourTurned.get k).1.pos (fourTurned.get k).2.pos :=
        varsOf_allVars r halfTurn.t (fun k => (fourTurned.get k).1.pos) (fun k => (fourTurned.get k).2.pos) k
      rw [hv]
      show residual _ ⬝ᵥ residual _ = 0
      rw [hres]
      simp
    dsimp only
    rw [e]
    refine Finset.sum_nonneg fun _ _ => ?_
    unfold pointCost
    exact Finset.sum_nonneg fun _ _ => mul_self_nonneg _

/-- A point that is matched with its image by the transformation, on a plane with the given normal. -/
def onPlane (R : Matrix (Fin 3) (Fin 3) ℝ) (p n : Fin 3 → ℝ) : Pt ℝ × Pt ℝ := (⟨p, 0, 0⟩, ⟨R *ᵥ p, n, 0⟩)

/-- Six points on planes. -/
def sixPlanes (R : Matrix (Fin 3) (Fin 3) ℝ) : List (Pt ℝ × Pt ℝ) :=
  [onPlane R 0 ![1, 0, 0], onPlane R 0 ![0, 1, 0], onPlane R 0 ![0, 0, 1], onPlane R ![0, 0, 1] ![0, 1, 0],
    onPlane R ![1, 0, 0] ![0, 1, 0], onPlane R ![1, 0, 0] ![0, 0, 1]]

/-- `C66_minimiser_linear_plane` and `C66_lls_plane`: six points on planes. -/
example : IsUnit (sumDx2 (planeLin 0 0) (sixPlanes 1)).det ∧
    Minimises (totalCost fun k : Fin (sixPlanes 1).length => planeLinCost ((sixPlanes 1).get k).2.normal) (poseVars 0 0)
      (dataOf (sixPlanes 1)) ∧
    ∀ y, planeCostWithErrors (sixPlanes 1) 0 (poseVars 0 0) ≤ planeCostWithErrors (sixPlanes 1) 0 y := by
  have h0 : ∀ k : Fin (sixPlanes 1).length, ((sixPlanes 1).get k).1.pos = ((sixPlanes 1).get k).2.pos := by
    intro k
    fin_cases k <;> simp [sixPlanes, onPlane]
  have hr : ∀ k : Fin (sixPlanes 1).length,
      linearResidual (varsOf (Sum.elim (poseVars 0 0) (dataOf (sixPlanes 1))) k) = 0 := by
    intro k
    have hz : poseVars 0 0 = 0 := by funext i; cases i <;> rfl
    funext a
    rw [linearResidual_eq, h0 k, sub_self, hz, mulVec_zero]
    simp
  refine ⟨?_, Filter.Eventually.of_forall fun y => ?_, fun y => ?_⟩
  · rw [← planeJacobian_square 0 0, ← conjTranspose_eq_transpose_of_trivial]
    refine (isUnit_iff_isUnit_det _).1 (PosDef.conjTranspose_mul_self _ ?_).isUnit
    rw [← Matrix.coe_mulVecLin, injective_iff_map_eq_zero]
    intro u hu
    have hk : ∀ k : Fin (sixPlanes 1).length, (planeJacobian (sixPlanes 1) *ᵥ u) k = 0 := fun k => congrFun hu k
    have a0 := hk ⟨0, by simp [sixPlanes]⟩
    have a1 := hk ⟨1, by simp [sixPlanes]⟩
    have a2 := hk ⟨2, by simp [sixPlanes]⟩
    have a3 := hk ⟨3, by simp [sixPlanes]⟩
    have a4 := hk ⟨4, by simp [sixPlanes]⟩
    have a5 := hk ⟨5, by simp [sixPlanes]⟩
    simp only [planeJacobian, mulVec, dotProduct, Fintype.sum_sum_type, Fin.sum_univ_three, Sum.elim_inl, Sum.elim_inr, cross_apply,
      sixPlanes, onPlane] at a0 a1 a2 a3 a4 a5
    simp at a0 a1 a2 a3 a4 a5
    rw [a1, add_zero] at a3 a4
    rw [a2, add_zero] at a5
    funext i
    rcases i with i | i <;> fin_cases i
    · simpa using a3
    · simpa using a5
    · simpa using a4
    · simpa using a0
    · simpa using a1
    · simpa using a2
  · dsimp only
    have e : totalCost (fun k : Fin (sixPlanes 1).length => planeLinCost ((sixPlanes 1).get k).2.normal)
        (Sum.elim (poseVars 0 0) (dataOf (sixPlanes 1))) = 0 := by
      refine Finset.sum_eq_zero fun k _ => ?_
      show (_ ⬝ᵥ linearResidual _) ^ 2 = 0
      rw [hr]
      simp
    rw [e]
    exact Finset.sum_nonneg fun _ _ => sq_nonneg _
  · have e : planeCostWithErrors (sixPlanes 1) 0 (poseVars 0 0) = 0 := by
      unfold planeCostWithErrors
      simp only [hr]
      simp
    rw [e]
    exact Finset.sum_nonneg fun _ _ => sq_nonneg _

theorem sixPlanes_residual (k : Fin (sixPlanes halfTurn.R).length) :
    residual (vars (componentsOfTransform halfTurn).r halfTurn.t ((sixPlanes halfTurn.R).get k).1.pos
      ((sixPlanes halfTurn.R).get k).2.pos) = 0 := by
  have he : expRotation (componentsOfTransform halfTurn).r = halfTurn.R := (C81_from_transform halfTurn_rigid).2.2.1
  have hq : ((sixPlanes halfTurn.R).get k).2.pos = halfTurn.R *ᵥ ((sixPlanes halfTurn.R).get k).1.pos := by
    fin_cases k <;> rfl
  show expRotation (componentsOfTransform halfTurn).r *ᵥ ((sixPlanes halfTurn.R).get k).1.pos + halfTurn.t -
    ((sixPlanes halfTurn.R).get k).2.pos = 0
  rw [he, hq]
  funext i
  simp [halfTurn]

/-- The derivatives of the residuals of the six points. -/
noncomputable def sixPlanesJacobian (r : Fin 3 → ℝ) : Matrix (Fin (sixPlanes halfTurn.R).length) (Fin 3 ⊕ Fin 3) ℝ := fun k i =>
  ∑ a, ((sixPlanes halfTurn.R).get k).2.normal a *
    nlD a (.inl i) (vars r halfTurn.t ((sixPlanes halfTurn.R).get k).1.pos ((sixPlanes halfTurn.R).get k).2.pos)

/-- `C66_minimiser_plane`: six points on planes that are turned by half a turn, with a registration that finds it. -/
example : ∃ M, Rigid halfTurn ∧ halfTurn.R ≠ 1 ∧ planeNonlin (componentsOfTransform halfTurn) = some M ∧
    IsUnit (sumDx2 M (sixPlanes halfTurn.R)).det ∧
    Minimises (totalCost fun k : Fin (sixPlanes halfTurn.R).length => planeCost ((sixPlanes halfTurn.R).get k).2.normal)
      (poseVars (componentsOfTransform halfTurn).r halfTurn.t) (dataOf (sixPlanes halfTurn.R)) := by
  have h1 : halfTurn.R ≠ 1 := by
    intro h
    have := congrFun (congrFun h 1) 1
    simp [halfTurn] at this
    norm_num at this
  obtain ⟨M, hM, hr, hd⟩ := C71_total_plane halfTurn_rigid h1 (sixPlanes halfTurn.R)
  have hne := rotation_ne halfTurn_rigid h1
  have hres := sixPlanes_residual
  have hker := halfTurn_kernel
  generalize (componentsOfTransform halfTurn).r = r at hr hd hne hres hker ⊢
  refine ⟨M, halfTurn_rigid, h1, hM, ?_, ?_⟩
  · let w := allVars r halfTurn.t (fun k => ((sixPlanes halfTurn.R).get k).1.pos) (fun k => ((sixPlanes halfTurn.R).get k).2.pos)
    have hF : ContDiffAt ℝ 2
        (totalCost fun k : Fin (sixPlanes halfTurn.R).length => planeCost ((sixPlanes halfTurn.R).get k).2.normal) w :=
      totalCost_contDiffAt fun k => planeCost_contDiffAt _ (by rw [rOf_varsOf_allVars]; exact hne)
    generalize hBdef : sixPlanesJacobian r = B
    have hB : sumDx2 M (sixPlanes halfTurn.R) = Bᵀ * B := by
      funext i j
      have e1 := isSecondPartial_eq hF (hd i j ⟨0, by simp [sixPlanes]⟩).1
      have e2 : IsSecondPartial
          (totalCost fun k : Fin (sixPlanes halfTurn.R).length => planeCost ((sixPlanes halfTurn.R).get k).2.normal)
          (.inl i) (.inl j) w (∑ k : Fin (sixPlanes halfTurn.R).length, 2 * (B k i * B k j)) := by
        refine totalCost_pose fun k => ?_
        rw [varsOf_allVars]
        have := plane_second ((sixPlanes halfTurn.R).get k).2.normal
          (w := vars r halfTurn.t ((sixPlanes halfTurn.R).get k).1.pos ((sixPlanes halfTurn.R).get k).2.pos) hne i (.inl j)
        simp only [hres, Pi.zero_apply, mul_zero, Finset.sum_const_zero, zero_mul, add_zero] at this
        rw [← hBdef]
        exact this
      have e3 := isSecondPartial_eq hF e2
      rw [← e3, ← Finset.mul_sum] at e1
      have e4 := mul_left_cancel₀ two_ne_zero e1
      rw [e4, Matrix.mul_apply]
      rfl
    have hinj : Function.Injective B.mulVec := by
      rw [← Matrix.coe_mulVecLin, injective_iff_map_eq_zero]
      intro u hu
      have hk : ∀ k : Fin (sixPlanes halfTurn.R).length, ∑ a, ((sixPlanes halfTurn.R).get k).2.normal a *
          ((∑ b, (∑ l, dRotE (cof (len r)) r b a l * ((sixPlanes halfTurn.R).get k).1.pos l) * u (.inl b)) + u (.inr a)) = 0 := by
        intro k
        have h := congrFun hu k
        rw [← hBdef] at h
        simp only [mulVecLin_apply, mulVec, dotProduct, Pi.zero_apply, sixPlanesJacobian, Finset.sum_mul] at h
        rw [Finset.sum_comm] at h
        rw [← h]
        refine Finset.sum_congr rfl fun a _ => ?_
        rw [Fintype.sum_sum_type, mul_add, Finset.mul_sum]
        congr 1
        · refine Finset.sum_congr rfl fun b _ => ?_
          rw [mul_assoc]
          rfl
        · show _ = ∑ b, _ * dl b a * u (.inr b)
          simp [dl]
      have a0 := hk ⟨0, by simp [sixPlanes]⟩
      have a1 := hk ⟨1, by simp [sixPlanes]⟩
      have a2 := hk ⟨2, by simp [sixPlanes]⟩
      have a3 := hk ⟨3, by simp [sixPlanes]⟩
      have a4 := hk ⟨4, by simp [sixPlanes]⟩
      have a5 := hk ⟨5, by simp [sixPlanes]⟩
      simp only [sixPlanes, onPlane] at a0 a1 a2 a3 a4 a5
      simp [Fin.sum_univ_three] at a0 a1 a2 a3 a4 a5
      rw [a1, add_zero] at a3 a4
      rw [a2, add_zero] at a5
      have hu0 := hker (fun b => u (.inl b)) (by rw [Fin.sum_univ_three]; exact a3) (by rw [Fin.sum_univ_three]; exact a4)
        (by rw [Fin.sum_univ_three]; exact a5)
      funext i
      rcases i with i | i
      · exact hu0 i
      · fin_cases i
        · exact a0
        · exact a1
        · exact a2
    rw [hB, ← conjTranspose_eq_transpose_of_trivial]
    exact (isUnit_iff_isUnit_det _).1 (PosDef.conjTranspose_mul_self B hinj).isUnit
  · refine Filter.Eventually.of_forall fun y => ?_
    have e : totalCost (fun k : Fin (sixPlanes halfTurn.R).length => planeCost ((sixPlanes halfTurn.R).get k).2.normal)
        (Sum.elim (poseVars r halfTurn.t) (dataOf (sixPlanes halfTurn.R))) = 0 := by
      refine Finset.sum_eq_zero fun k _ => ?_
      have hv : varsOf (Sum.elim (poseVars r halfTurn.t) (dataOf (sixPlanes halfTurn.R))) k =
          vars r halfTurn.t ((sixPlanes halfTurn.R).get k).1.pos ((sixPlanes halfTurn.R).get k).2.pos :=
        varsOf_allVars r halfTurn.t (fun k => ((sixPlanes halfTurn.R).get k).1.pos)
          (fun k => ((sixPlanes halfTurn.R).get k).2.pos) k
      rw [hv]
      show (_ ⬝ᵥ residual _) ^ 2 = 0
      rw [hres]
      simp
    dsimp only
    rw [e]
    exact Finset.sum_nonneg fun _ _ => sq_nonneg _

end Icp

end Serpent
