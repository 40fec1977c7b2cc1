import Verif.Spec.Derivatives
import Verif.Spec.RegistrationCovariance
import Verif.Spec.Minimiser
import Mathlib.Analysis.Calculus.ImplicitContDiff
import Mathlib.Analysis.Calculus.FDeriv.Symmetric
import Mathlib.Analysis.Calculus.Deriv.Pi
import Mathlib.Analysis.Calculus.Deriv.Comp
import Mathlib.Analysis.Calculus.DerivativeTest
import Mathlib.Analysis.Calculus.Deriv.MeanValue
import Mathlib.Topology.Algebra.Module.FiniteDimension
import Mathlib.LinearAlgebra.Matrix.ToLin
import Mathlib.LinearAlgebra.Matrix.PosDef
import Mathlib.Algebra.Order.Star.Real
import Mathlib.Analysis.Matrix.Order

/-!
# Dependence of a minimiser on the data
-/

namespace Serpent

namespace Icp

open Matrix Topology Function

section
variable {V : Type} [Fintype V] [DecidableEq V] {F : (V → ℝ) → ℝ} {w : V → ℝ}

/-- The partial derivative of a differentiable function. -/
theorem hasDerivAt_partial {y : V → ℝ} (h : DifferentiableAt ℝ F y) (j : V) :
    HasDerivAt (fun s => F (update y j s)) (fderiv ℝ F y (Pi.single j 1)) (y j) := by
  have h1 := hasDerivAt_update y j (y j)
  have h2 : HasFDerivAt F (fderiv ℝ F y) (update y j (y j)) := by rw [update_eq_self]; exact h.hasFDerivAt
  exact h2.comp_hasDerivAt (y j) h1

/-- Second partial derivatives of a smooth function are entries of its second derivative. -/
theorem isSecondPartial_eq (hF : ContDiffAt ℝ 2 F w) {i j : V} {v : ℝ} (h : IsSecondPartial F i j w v) :
    v = fderiv ℝ (fderiv ℝ F) w (Pi.single i 1) (Pi.single j 1) := by
  obtain ⟨G, h1, h2⟩ := h
  have hd : ∀ᶠ y in 𝓝 w, DifferentiableAt ℝ F y :=
    (hF.eventually (by decide)).mono fun y hy => hy.differentiableAt (by decide)
  have hG : G =ᶠ[𝓝 w] fun y => fderiv ℝ F y (Pi.single j 1) := by
    filter_upwards [h1, hd] with y a b
    exact a.unique (hasDerivAt_partial b j)
  have hF1 : ContDiffAt ℝ 1 (fderiv ℝ F) w := hF.fderiv_right (by norm_num)
  have hdd : DifferentiableAt ℝ (fderiv ℝ F) w := hF1.differentiableAt (by decide)
  have hf : HasFDerivAt (fun y => fderiv ℝ F y (Pi.single j 1)) _ w :=
    (hdd.hasFDerivAt).clm_apply (hasFDerivAt_const (Pi.single j (1 : ℝ) : V → ℝ) w)
  have h4 := hf.comp_hasDerivAt_of_eq (w i) (hasDerivAt_update w i (w i)) (update_eq_self i w).symm
  have ht : Filter.Tendsto (fun s => update w i s) (𝓝 (w i)) (𝓝 w) := by
    have : Continuous fun s => update w i s := continuous_const.update i continuous_id
    have := this.tendsto (w i)
    rwa [update_eq_self] at this
  have h5 := h4.congr_of_eventuallyEq (ht.eventually hG)
  have := h2.unique h5
  simpa using this

end

section
variable {X Z : Type} [Fintype X] [Fintype Z] [DecidableEq X] [DecidableEq Z]

/-- The variables, from the data and the pose. -/
noncomputable def joinL : (Z → ℝ) × (X → ℝ) →L[ℝ] (X ⊕ Z → ℝ) :=
  ContinuousLinearMap.pi fun v => match v with
    | .inl i => (ContinuousLinearMap.proj i).comp (ContinuousLinearMap.snd ℝ _ _)
    | .inr k => (ContinuousLinearMap.proj k).comp (ContinuousLinearMap.fst ℝ _ _)

omit [Fintype X] [Fintype Z] [DecidableEq X] [DecidableEq Z] in
theorem joinL_apply (v : (Z → ℝ) × (X → ℝ)) : joinL v = Sum.elim v.2 v.1 := by
  funext i; cases i <;> rfl

/-- The gradient by the pose. -/
noncomputable def grad (F : (X ⊕ Z → ℝ) → ℝ) (v : (Z → ℝ) × (X → ℝ)) : X → ℝ :=
  fun i => fderiv ℝ F (joinL v) (Pi.single (.inl i) 1)

/-- Evaluation in the directions of the pose. -/
noncomputable def evalL : ((X ⊕ Z → ℝ) →L[ℝ] ℝ) →L[ℝ] (X → ℝ) :=
  ContinuousLinearMap.pi fun i => ContinuousLinearMap.apply ℝ ℝ (Pi.single (.inl i) (1 : ℝ))

theorem sum_single {V : Type} [Fintype V] [DecidableEq V] (L : (V → ℝ) →L[ℝ] ℝ) (x : V → ℝ) :
    L x = ∑ i, x i * L (Pi.single i 1) := by
  conv_lhs => rw [pi_eq_sum_univ' x]
  rw [map_sum]
  refine Finset.sum_congr rfl fun i _ => ?_
  rw [map_smul, smul_eq_mul]

/-- The continuous linear map of a matrix. -/
noncomputable def mulL {A B : Type} [Fintype A] [Fintype B] [DecidableEq B] (M : Matrix A B ℝ) : (B → ℝ) →L[ℝ] (A → ℝ) :=
  LinearMap.toContinuousLinearMap (Matrix.toLin' M)

theorem mulL_apply {A B : Type} [Fintype A] [Fintype B] [DecidableEq B] (M : Matrix A B ℝ) (x : B → ℝ) : mulL M x = M *ᵥ x := rfl

variable {F : (X ⊕ Z → ℝ) → ℝ} {x₀ : X → ℝ} {z₀ : Z → ℝ}

theorem grad_hasFDerivAt (hF : ContDiffAt ℝ 2 F (joinL (z₀, x₀))) :
    HasFDerivAt (grad F) (evalL ∘L fderiv ℝ (fderiv ℝ F) (joinL (z₀, x₀)) ∘L joinL) (z₀, x₀) := by
  have hF1 : ContDiffAt ℝ 1 (fderiv ℝ F) (joinL (z₀, x₀)) := hF.fderiv_right (by norm_num)
  have h1 := (hF1.differentiableAt (by decide)).hasFDerivAt
  have h2 := h1.comp (z₀, x₀) (joinL (X := X) (Z := Z)).hasFDerivAt
  exact (evalL (X := X) (Z := Z)).hasFDerivAt.comp (z₀, x₀) h2

theorem grad_contDiffAt (hF : ContDiffAt ℝ 2 F (joinL (z₀, x₀))) : ContDiffAt ℝ 1 (grad F) (z₀, x₀) := by
  have hF1 : ContDiffAt ℝ 1 (fderiv ℝ F) (joinL (z₀, x₀)) := hF.fderiv_right (by norm_num)
  have h2 := hF1.comp (z₀, x₀) (joinL (X := X) (Z := Z)).contDiff.contDiffAt
  exact (evalL (X := X) (Z := Z)).contDiff.contDiffAt.comp (z₀, x₀) h2

/-- The second derivative is symmetric. -/
theorem second_symm {V : Type} [Fintype V] {F : (V → ℝ) → ℝ} {w : V → ℝ} (hF : ContDiffAt ℝ 2 F w) (a b : V → ℝ) :
    fderiv ℝ (fderiv ℝ F) w a b = fderiv ℝ (fderiv ℝ F) w b a :=
  (hF.isSymmSndFDerivAt (by simp)).eq a b

section
variable {Fxx : Matrix X X ℝ} {Fxz : Matrix X Z ℝ} (hF : ContDiffAt ℝ 2 F (joinL (z₀, x₀)))
  (hxx : ∀ i j, IsSecondPartial F (.inl i) (.inl j) (joinL (z₀, x₀)) (Fxx i j))
  (hxz : ∀ i k, IsSecondPartial F (.inl i) (.inr k) (joinL (z₀, x₀)) (Fxz i k))
include hF

include hxx in
theorem grad_pose : fderiv ℝ (grad F) (z₀, x₀) ∘L .inr ℝ (Z → ℝ) (X → ℝ) = mulL Fxx := by
  rw [(grad_hasFDerivAt hF).fderiv]
  ext x i
  rw [mulL_apply]
  show fderiv ℝ (fderiv ℝ F) (joinL (z₀, x₀)) (joinL (0, x)) (Pi.single (.inl i) 1) = _
  rw [second_symm hF, sum_single, Fintype.sum_sum_type, joinL_apply]
  simp only [Sum.elim_inl, Sum.elim_inr, Pi.zero_apply, zero_mul, Finset.sum_const_zero, add_zero, mulVec, dotProduct]
  refine Finset.sum_congr rfl fun j _ => ?_
  rw [isSecondPartial_eq hF (hxx i j), mul_comm, joinL_apply]

include hxz in
theorem grad_data : fderiv ℝ (grad F) (z₀, x₀) ∘L .inl ℝ (Z → ℝ) (X → ℝ) = mulL Fxz := by
  rw [(grad_hasFDerivAt hF).fderiv]
  ext x i
  rw [mulL_apply]
  show fderiv ℝ (fderiv ℝ F) (joinL (z₀, x₀)) (joinL (x, 0)) (Pi.single (.inl i) 1) = _
  rw [second_symm hF, sum_single, Fintype.sum_sum_type, joinL_apply]
  simp only [Sum.elim_inl, Sum.elim_inr, Pi.zero_apply, zero_mul, Finset.sum_const_zero, zero_add, mulVec, dotProduct]
  refine Finset.sum_congr rfl fun j _ => ?_
  rw [isSecondPartial_eq hF (hxz i j), mul_comm, joinL_apply]

end

theorem mulL_mul {A B C : Type} [Fintype A] [Fintype B] [Fintype C] [DecidableEq B] [DecidableEq C] (M : Matrix A B ℝ)
    (N : Matrix B C ℝ) : mulL M ∘L mulL N = mulL (M * N) := by
  ext x i
  simp [mulL_apply]

theorem mulL_one {A : Type} [Fintype A] [DecidableEq A] : mulL (1 : Matrix A A ℝ) = ContinuousLinearMap.id ℝ _ := by
  ext x i
  simp [mulL_apply]

/-- An invertible matrix is an invertible map. -/
noncomputable def mulE (M : Matrix X X ℝ) (h : IsUnit M.det) : (X → ℝ) ≃L[ℝ] (X → ℝ) :=
  ContinuousLinearEquiv.equivOfInverse (mulL M) (mulL M⁻¹)
    (fun x => by rw [← ContinuousLinearMap.comp_apply, mulL_mul, nonsing_inv_mul _ h, mulL_one]; rfl)
    (fun x => by rw [← ContinuousLinearMap.comp_apply, mulL_mul, mul_nonsing_inv _ h, mulL_one]; rfl)

/-- Where the gradient vanishes near a point where it does: a function of the data, whose derivative is the sensitivity. -/
theorem zero_gradient {Fxx : Matrix X X ℝ} {Fxz : Matrix X Z ℝ} (hF : ContDiffAt ℝ 2 F (joinL (z₀, x₀)))
    (hxx : ∀ i j, IsSecondPartial F (.inl i) (.inl j) (joinL (z₀, x₀)) (Fxx i j))
    (hxz : ∀ i k, IsSecondPartial F (.inl i) (.inr k) (joinL (z₀, x₀)) (Fxz i k)) (hdet : IsUnit Fxx.det)
    (h0 : grad F (z₀, x₀) = 0) :
    ∃ x : (Z → ℝ) → X → ℝ, x z₀ = x₀ ∧ HasFDerivAt x (mulL (sensitivity Fxx Fxz)) z₀ ∧
      ∀ᶠ v in 𝓝 (z₀, x₀), grad F v = 0 ↔ v.2 = x v.1 := by
  have hG := grad_contDiffAt hF
  have e : fderiv ℝ (grad F) (z₀, x₀) ∘L .inr ℝ (Z → ℝ) (X → ℝ) = (mulE Fxx hdet : (X → ℝ) →L[ℝ] (X → ℝ)) := grad_pose hF hxx
  have hinv : (fderiv ℝ (grad F) (z₀, x₀) ∘L .inr ℝ (Z → ℝ) (X → ℝ)).IsInvertible := ⟨_, e.symm⟩
  refine ⟨hG.implicitFunction one_ne_zero hinv, hG.implicitFunction_apply_self one_ne_zero hinv, ?_, ?_⟩
  · have h := (hG.hasStrictFDerivAt_implicitFunction one_ne_zero hinv).hasFDerivAt
    rw [e, ContinuousLinearMap.inverse_equiv, grad_data hF hxz] at h
    refine h.congr_fderiv ?_
    show -(mulL Fxx⁻¹ ∘L mulL Fxz) = _
    rw [mulL_mul]
    ext x i
    simp [mulL_apply, sensitivity, neg_mulVec]
  · filter_upwards [hG.eventually_apply_eq_iff_implicitFunction one_ne_zero hinv] with v hv
    rw [h0] at hv
    rw [hv, eq_comm]

/-! ### Along a line -/

section
variable {V : Type} [Fintype V] {F : (V → ℝ) → ℝ} {w d : V → ℝ} {s : ℝ}

theorem line_hasDerivAt : HasDerivAt (fun s : ℝ => w + s • d) d s := by
  have := ((hasDerivAt_id s).smul_const d).const_add w
  simpa using this

theorem line_first (h : DifferentiableAt ℝ F (w + s • d)) :
    HasDerivAt (fun s : ℝ => F (w + s • d)) (fderiv ℝ F (w + s • d) d) s :=
  h.hasFDerivAt.comp_hasDerivAt s line_hasDerivAt

theorem line_second (h : ContDiffAt ℝ 2 F (w + s • d)) :
    HasDerivAt (fun s : ℝ => fderiv ℝ F (w + s • d) d) (fderiv ℝ (fderiv ℝ F) (w + s • d) d d) s := by
  have h1 : ContDiffAt ℝ 1 (fderiv ℝ F) (w + s • d) := h.fderiv_right (by norm_num)
  have h2 := (h1.differentiableAt (by decide)).hasFDerivAt.comp_hasDerivAt s (line_hasDerivAt (w := w) (d := d) (s := s))
  have h3 := h2.clm_apply (hasDerivAt_const s d)
  simpa using h3

/-- A function with a local minimum along a line has no negative second derivative along it. -/
theorem second_nonneg (h : ContDiffAt ℝ 2 F w) (hm : IsLocalMin (fun s : ℝ => F (w + s • d)) 0) :
    0 ≤ fderiv ℝ (fderiv ℝ F) w d d := by
  by_contra hn
  push Not at hn
  have ht : Filter.Tendsto (fun s : ℝ => w + s • d) (𝓝 0) (𝓝 w) := by
    have := (line_hasDerivAt (w := w) (d := d) (s := 0)).continuousAt.tendsto
    simpa using this
  have hd : deriv (fun s : ℝ => F (w + s • d)) =ᶠ[𝓝 0] fun s => fderiv ℝ F (w + s • d) d := by
    filter_upwards [ht.eventually (h.eventually (by decide))] with s hs
    exact (line_first (hs.differentiableAt (by decide))).deriv
  have h0 : w + (0 : ℝ) • d = w := by simp
  have h2 : deriv (deriv fun s : ℝ => F (w + s • d)) 0 = fderiv ℝ (fderiv ℝ F) w d d := by
    rw [hd.deriv_eq, (line_second (by rw [h0]; exact h)).deriv, h0]
  have hc : ContinuousAt (fun s : ℝ => F (w + s • d)) 0 :=
    (line_first (by rw [h0]; exact h.differentiableAt (by decide))).continuousAt
  have hM := isLocalMax_of_deriv_deriv_neg (by rw [h2]; exact hn) hm.deriv_eq_zero hc
  have he : (fun s : ℝ => F (w + s • d)) =ᶠ[𝓝 0] fun _ => F (w + (0 : ℝ) • d) := by
    filter_upwards [hm, hM] with s a b
    exact le_antisymm b a
  have : deriv (deriv fun s : ℝ => F (w + s • d)) 0 = 0 := by
    rw [he.deriv.deriv_eq]
    simp
  rw [h2] at this
  exact hn.ne this

/-- A stationary point is a minimum along a segment on which the second derivative is not negative. -/
theorem segment_le (h : ∀ s ∈ Set.Icc (0 : ℝ) 1, ContDiffAt ℝ 2 F (w + s • d))
    (hp : ∀ s ∈ Set.Icc (0 : ℝ) 1, 0 ≤ fderiv ℝ (fderiv ℝ F) (w + s • d) d d) (h0 : fderiv ℝ F w d = 0) : F w ≤ F (w + d) := by
  have m1 : MonotoneOn (fun s : ℝ => fderiv ℝ F (w + s • d) d) (Set.Icc 0 1) := by
    refine monotoneOn_of_deriv_nonneg (convex_Icc 0 1) (fun s hs => (line_second (h s hs)).continuousAt.continuousWithinAt)
      (fun s hs => ?_) (fun s hs => ?_)
    · exact (line_second (h s (interior_subset hs))).differentiableAt.differentiableWithinAt
    · rw [(line_second (h s (interior_subset hs))).deriv]
      exact hp s (interior_subset hs)
  have hd : ∀ s ∈ Set.Icc (0 : ℝ) 1, HasDerivAt (fun s : ℝ => F (w + s • d)) (fderiv ℝ F (w + s • d) d) s :=
    fun s hs => line_first ((h s hs).differentiableAt (by decide))
  have m2 : MonotoneOn (fun s : ℝ => F (w + s • d)) (Set.Icc 0 1) := by
    refine monotoneOn_of_deriv_nonneg (convex_Icc 0 1) (fun s hs => (hd s hs).continuousAt.continuousWithinAt)
      (fun s hs => (hd s (interior_subset hs)).differentiableAt.differentiableWithinAt) (fun s hs => ?_)
    rw [(hd s (interior_subset hs)).deriv]
    have := m1 (Set.left_mem_Icc.2 zero_le_one) (interior_subset hs) (interior_subset hs).1
    simpa [h0] using this
  have := m2 (Set.left_mem_Icc.2 zero_le_one) (Set.right_mem_Icc.2 zero_le_one) zero_le_one
  simpa using this

end

/-! ### Minimisers -/

omit [Fintype X] [Fintype Z] [DecidableEq X] [DecidableEq Z] in
theorem joinL_zero_smul (c : ℝ) (u : X → ℝ) : joinL ((0 : Z → ℝ), c • u) = c • joinL ((0 : Z → ℝ), u) := by
  rw [← map_smul]
  congr 1
  simp

omit [Fintype X] [Fintype Z] [DecidableEq X] [DecidableEq Z] in
theorem joinL_add (z : Z → ℝ) (x u : X → ℝ) : joinL (z, x + u) = joinL (z, x) + joinL ((0 : Z → ℝ), u) := by
  rw [← map_add]
  congr 1
  simp

omit [Fintype X] [Fintype Z] in
theorem joinL_single (i : X) : joinL ((0 : Z → ℝ), (Pi.single i 1 : X → ℝ)) = Pi.single (.inl i) 1 := by
  rw [joinL_apply]
  funext v
  rcases v with j | k
  · by_cases h : j = i
    · subst h; simp
    · simp [h]
  · simp

/-- The gradient is the derivative in the directions of the pose. -/
theorem grad_eq_zero_iff {v : (Z → ℝ) × (X → ℝ)} : grad F v = 0 ↔ ∀ u, fderiv ℝ F (joinL v) (joinL (0, u)) = 0 := by
  constructor
  · intro h u
    rw [sum_single, Fintype.sum_sum_type, joinL_apply (0, u)]
    have : ∀ i, fderiv ℝ F (joinL v) (Pi.single (.inl i) 1) = 0 := fun i => congrFun h i
    simp [this]
  · intro h
    funext i
    have := h (Pi.single i 1)
    rwa [joinL_single] at this

theorem localMin_grad {v : (Z → ℝ) × (X → ℝ)} (hF : DifferentiableAt ℝ F (joinL v))
    (hm : IsLocalMin (fun y => F (joinL (v.1, y))) v.2) : grad F v = 0 := by
  rw [grad_eq_zero_iff]
  intro u
  have ht : Filter.Tendsto (fun s : ℝ => v.2 + s • u) (𝓝 0) (𝓝 v.2) := by
    have := (line_hasDerivAt (w := v.2) (d := u) (s := 0)).continuousAt.tendsto
    simpa using this
  have h1 : IsLocalMin (fun s : ℝ => F (joinL v + s • joinL (0, u))) 0 := by
    refine (ht.eventually hm).mono fun s hs => ?_
    dsimp only at hs ⊢
    rw [joinL_add, joinL_zero_smul] at hs
    simpa using hs
  have h2 := line_first (F := F) (w := joinL v) (d := joinL (0, u)) (s := 0) (by simpa using hF)
  have := IsLocalMin.hasDerivAt_eq_zero h1 h2
  simpa using this

omit [DecidableEq X] [DecidableEq Z] in
theorem localMin_second (hF : ContDiffAt ℝ 2 F (joinL (z₀, x₀))) (hm : IsLocalMin (fun y => F (joinL (z₀, y))) x₀) (u : X → ℝ) :
    0 ≤ fderiv ℝ (fderiv ℝ F) (joinL (z₀, x₀)) (joinL (0, u)) (joinL (0, u)) := by
  refine second_nonneg hF ?_
  have ht : Filter.Tendsto (fun s : ℝ => x₀ + s • u) (𝓝 0) (𝓝 x₀) := by
    have := (line_hasDerivAt (w := x₀) (d := u) (s := 0)).continuousAt.tendsto
    simpa using this
  refine (ht.eventually hm).mono fun s hs => ?_
  dsimp only at hs ⊢
  rw [joinL_add, joinL_zero_smul] at hs
  simpa using hs

/-- Near a point with a definite Hessian the zeros of the gradient are minima. -/
theorem grad_localMin (hF : ContDiffAt ℝ 2 F (joinL (z₀, x₀)))
    (hp : ∀ u : X → ℝ, u ≠ 0 → 0 < fderiv ℝ (fderiv ℝ F) (joinL (z₀, x₀)) (joinL (0, u)) (joinL (0, u))) :
    ∀ᶠ v in 𝓝 (z₀, x₀), grad F v = 0 → IsLocalMin (fun y => F (joinL (v.1, y))) v.2 := by
  have hF1 : ContDiffAt ℝ 1 (fderiv ℝ F) (joinL (z₀, x₀)) := hF.fderiv_right (by norm_num)
  have hc : ContinuousAt (fderiv ℝ (fderiv ℝ F)) (joinL (z₀, x₀)) :=
    (hF1.fderiv_right (m := 0) (by norm_num)).continuousAt
  have hs : ∀ᶠ w in 𝓝 (joinL (z₀, x₀)), ∀ u ∈ Metric.sphere (0 : X → ℝ) 1,
      0 < fderiv ℝ (fderiv ℝ F) w (joinL ((0 : Z → ℝ), u)) (joinL (0, u)) := by
    refine IsCompact.eventually_forall_of_forall_eventually (isCompact_sphere _ _) fun u hu => ?_
    have hu0 : u ≠ 0 := by
      rintro rfl
      simp at hu
    have hcont : ContinuousAt (fun q : (X ⊕ Z → ℝ) × (X → ℝ) =>
        fderiv ℝ (fderiv ℝ F) q.1 (joinL ((0 : Z → ℝ), q.2)) (joinL (0, q.2))) (joinL (z₀, x₀), u) := by
      have h1 : ContinuousAt (fun q : (X ⊕ Z → ℝ) × (X → ℝ) => fderiv ℝ (fderiv ℝ F) q.1) (joinL (z₀, x₀), u) :=
        ContinuousAt.comp (f := Prod.fst) hc continuousAt_fst
      have h2 : ContinuousAt (fun q : (X ⊕ Z → ℝ) × (X → ℝ) => joinL ((0 : Z → ℝ), q.2)) (joinL (z₀, x₀), u) := by
        fun_prop
      exact (h1.clm_apply h2).clm_apply h2
    exact hcont.eventually (lt_mem_nhds (hp u hu0))
  obtain ⟨ε, hε, hb⟩ := Metric.eventually_nhds_iff_ball.1 (hs.and (hF.eventually (by decide)))
  have hcj : Continuous (joinL : (Z → ℝ) × (X → ℝ) →L[ℝ] (X ⊕ Z → ℝ)) := (joinL (X := X) (Z := Z)).continuous
  have hv : ∀ᶠ v in 𝓝 (z₀, x₀), joinL v ∈ Metric.ball (joinL (z₀, x₀)) ε :=
    hcj.continuousAt.eventually (Metric.ball_mem_nhds _ hε)
  filter_upwards [hv] with v hv hg
  have hy : ∀ᶠ y in 𝓝 v.2, joinL (v.1, y) ∈ Metric.ball (joinL (z₀, x₀)) ε := by
    have : ContinuousAt (fun y => joinL (v.1, y)) v.2 := by fun_prop
    exact this.eventually (Metric.isOpen_ball.mem_nhds hv)
  refine hy.mono fun y hy => ?_
  have hd : joinL (v.1, y) = joinL v + joinL (0, y - v.2) := by
    rw [← joinL_add, add_sub_cancel]
  have hin : ∀ s ∈ Set.Icc (0 : ℝ) 1, joinL v + s • joinL (0, y - v.2) ∈ Metric.ball (joinL (z₀, x₀)) ε := by
    intro s hs
    have := (convex_ball (joinL (z₀, x₀)) ε).add_smul_sub_mem hv hy hs
    rwa [hd, add_sub_cancel_left] at this
  have hpos : ∀ w ∈ Metric.ball (joinL (z₀, x₀)) ε, ∀ u : X → ℝ,
      0 ≤ fderiv ℝ (fderiv ℝ F) w (joinL ((0 : Z → ℝ), u)) (joinL (0, u)) := by
    intro w hw u
    by_cases hu : u = 0
    · subst hu
      have : joinL ((0 : Z → ℝ), (0 : X → ℝ)) = 0 := map_zero _
      rw [this]
      simp
    · have hn : 0 < ‖u‖ := norm_pos_iff.2 hu
      have h1 := (hb w hw).1 (‖u‖⁻¹ • u) (by simp [norm_smul, hn.ne'])
      rw [joinL_zero_smul] at h1
      simp only [map_smul, _root_.smul_apply, smul_eq_mul] at h1
      have h2 : 0 < ‖u‖⁻¹ := inv_pos.2 hn
      have h3 := (mul_pos_iff_of_pos_left h2).1 h1
      exact ((mul_pos_iff_of_pos_left h2).1 h3).le
  show F (joinL (v.1, v.2)) ≤ F (joinL (v.1, y))
  rw [hd]
  exact segment_le (fun s hs => (hb _ (hin s hs)).2) (fun s hs => hpos _ (hin s hs) _) (grad_eq_zero_iff.1 hg _)

/-- The Hessian by the pose as a quadratic form. -/
theorem second_eq {Fxx : Matrix X X ℝ} (hF : ContDiffAt ℝ 2 F (joinL (z₀, x₀)))
    (hxx : ∀ i j, IsSecondPartial F (.inl i) (.inl j) (joinL (z₀, x₀)) (Fxx i j)) (u : X → ℝ) :
    fderiv ℝ (fderiv ℝ F) (joinL (z₀, x₀)) (joinL (0, u)) (joinL (0, u)) = u ⬝ᵥ (Fxx *ᵥ u) := by
  have h := grad_pose hF hxx
  rw [(grad_hasFDerivAt hF).fderiv] at h
  rw [sum_single, Fintype.sum_sum_type, joinL_apply (0, u)]
  simp only [Sum.elim_inl, Sum.elim_inr, Pi.zero_apply, zero_mul, Finset.sum_const_zero, add_zero, dotProduct]
  refine Finset.sum_congr rfl fun i _ => ?_
  have := congrFun (congrArg (fun L => L u) h) i
  rw [mulL_apply] at this
  have e : joinL ((0 : Z → ℝ), u) = Sum.elim u 0 := joinL_apply _
  rw [← this, ← e]
  rfl

/-- A local minimiser with an invertible Hessian has a definite Hessian. -/
theorem localMin_posDef {Fxx : Matrix X X ℝ} (hF : ContDiffAt ℝ 2 F (joinL (z₀, x₀)))
    (hxx : ∀ i j, IsSecondPartial F (.inl i) (.inl j) (joinL (z₀, x₀)) (Fxx i j)) (hdet : IsUnit Fxx.det)
    (hm : IsLocalMin (fun y => F (joinL (z₀, y))) x₀) : Fxx.PosDef := by
  have hs : Fxx.IsHermitian := by
    ext i j
    rw [conjTranspose_apply, star_trivial, isSecondPartial_eq hF (hxx i j), isSecondPartial_eq hF (hxx j i), second_symm hF]
  have hp : Fxx.PosSemidef := by
    refine PosSemidef.of_dotProduct_mulVec_nonneg hs fun u => ?_
    rw [star_trivial, ← second_eq hF hxx]
    exact localMin_second hF hm u
  exact hp.posDef_iff_isUnit.2 ((isUnit_iff_isUnit_det _).2 hdet)

/-- The estimate is a function of the data, and its derivative is the sensitivity. -/
theorem estimate {Fxx : Matrix X X ℝ} {Fxz : Matrix X Z ℝ} (hF : ContDiffAt ℝ 2 F (Sum.elim x₀ z₀))
    (hxx : ∀ i j, IsSecondPartial F (.inl i) (.inl j) (Sum.elim x₀ z₀) (Fxx i j))
    (hxz : ∀ i k, IsSecondPartial F (.inl i) (.inr k) (Sum.elim x₀ z₀) (Fxz i k)) (hdet : IsUnit Fxx.det)
    (hm : Minimises F x₀ z₀) : ∃ x, IsEstimate F x₀ z₀ x ∧ HasJacobianAt x (sensitivity Fxx Fxz) z₀ := by
  have ej : ∀ (z : Z → ℝ) (x : X → ℝ), joinL (z, x) = Sum.elim x z := fun z x => joinL_apply _
  rw [← ej] at hF
  simp only [← ej] at hxx hxz
  have hm' : IsLocalMin (fun y => F (joinL (z₀, y))) x₀ := by
    unfold Minimises at hm
    simpa only [ej] using hm
  have hpd := localMin_posDef hF hxx hdet hm'
  have h0 := localMin_grad (v := (z₀, x₀)) (hF.differentiableAt (by decide)) hm'
  obtain ⟨x, hx, hd, he⟩ := zero_gradient hF hxx hxz hdet h0
  have hl := grad_localMin hF fun u hu => by
    rw [second_eq hF hxx]
    simpa using hpd.dotProduct_mulVec_pos hu
  refine ⟨x, ⟨hx, ?_, ?_⟩, hd⟩
  · have ht : Filter.Tendsto (fun z => (z, x z)) (𝓝 z₀) (𝓝 (z₀, x₀)) := by
      have h1 : Filter.Tendsto x (𝓝 z₀) (𝓝 x₀) := by
        have := hd.continuousAt.tendsto
        rwa [hx] at this
      exact Filter.Tendsto.prodMk_nhds Filter.tendsto_id h1
    filter_upwards [ht.eventually he, ht.eventually hl] with z a b
    have := b (a.2 rfl)
    unfold Minimises
    simpa only [ej] using this
  · have hcj : Continuous (joinL : (Z → ℝ) × (X → ℝ) →L[ℝ] (X ⊕ Z → ℝ)) := (joinL (X := X) (Z := Z)).continuous
    have hdiff : ∀ᶠ v in 𝓝 (z₀, x₀), DifferentiableAt ℝ F (joinL v) :=
      hcj.continuousAt.eventually ((hF.eventually (by decide)).mono fun w hw => hw.differentiableAt (by decide))
    have hsw : Filter.Tendsto (Prod.swap : (X → ℝ) × (Z → ℝ) → _) (𝓝 (x₀, z₀)) (𝓝 (z₀, x₀)) :=
      continuous_swap.tendsto (x₀, z₀)
    filter_upwards [hsw.eventually he, hsw.eventually hdiff] with v a b hv
    refine a.1 (localMin_grad b ?_)
    have := hv
    unfold Minimises at this
    simpa only [Prod.fst_swap, Prod.snd_swap, ej] using this

end

end Icp

end Serpent
