import Verif.Lemmas.RotationDerivatives
import Mathlib.Topology.Separation.Hausdorff

/-!
# Derivatives of the residual of a correspondence
-/

namespace Serpent

namespace Icp

open Matrix Topology Function

/-- The partial derivatives of the residual. -/
noncomputable def nlD (k : Fin 3) (j : Var) (y : Var → ℝ) : ℝ :=
  match j with
  | .inl (.inl a) => ∑ l, dRotE (cof (len (rOf y))) (rOf y) a k l * pOf y l
  | .inl (.inr a) => dl a k
  | .inr (.inl a) => rotE (cof (len (rOf y))) (rOf y) k a
  | .inr (.inr a) => -dl a k

/-- The second partial derivatives of the residual, the second one by a variable of the pose. -/
noncomputable def nlD2 (k : Fin 3) (i : Fin 3 ⊕ Fin 3) (j : Var) (y : Var → ℝ) : ℝ :=
  match i, j with
  | .inl a, .inl (.inl b) => ∑ l, ddRotE (cof (len (rOf y))) (rOf y) a b k l * pOf y l
  | .inl a, .inr (.inl b) => dRotE (cof (len (rOf y))) (rOf y) a k b
  | _, _ => 0

theorem residual_eq {w : Var → ℝ} (h : rOf w ≠ 0) (k : Fin 3) :
    residual w k = ∑ l, rotE (cof (len (rOf w))) (rOf w) k l * pOf w l + tOf w k - qOf w k := by
  show (∑ l, expRotation (rOf w) k l * pOf w l) + tOf w k - qOf w k = _
  simp only [expRotation_eq h]

theorem rOf_continuous : Continuous (rOf : (Var → ℝ) → Fin 3 → ℝ) := continuous_pi fun _ => continuous_apply _

theorem eventually_ne {x : Var → ℝ} (h : rOf x ≠ 0) : ∀ᶠ y in 𝓝 x, rOf y ≠ 0 :=
  rOf_continuous.continuousAt.eventually_ne h

theorem update_tendsto (y : Var → ℝ) (j : Var) : Filter.Tendsto (fun s => update y j s) (𝓝 (y j)) (𝓝 y) := by
  have : Continuous fun s => update y j s := continuous_const.update j continuous_id
  have := this.tendsto (y j)
  rwa [update_eq_self] at this

theorem rOf_update_r (y : Var → ℝ) (a : Fin 3) (s : ℝ) : rOf (update y (.inl (.inl a)) s) = update (rOf y) a s := by
  funext i
  by_cases h : i = a
  · subst h
    simp [rOf]
  · rw [update_of_ne h]
    show update y (.inl (.inl a)) s (.inl (.inl i)) = _
    rw [update_of_ne (by intro e; exact h (Sum.inl.inj (Sum.inl.inj e)))]
    rfl

theorem residual_deriv' {y : Var → ℝ} (h : rOf y ≠ 0) (k : Fin 3) (j : Var) :
    HasDerivAt (fun s => residual (update y j s) k) (nlD k j y) (y j) := by
  have he : (fun s => residual (update y j s) k) =ᶠ[𝓝 (y j)] fun s =>
      ∑ l, rotE (cof (len (rOf (update y j s)))) (rOf (update y j s)) k l * pOf (update y j s) l + tOf (update y j s) k -
        qOf (update y j s) k := by
    filter_upwards [(update_tendsto y j).eventually (eventually_ne h)] with s hs
    exact residual_eq hs k
  refine HasDerivAt.congr_of_eventuallyEq ?_ he
  rcases j with (a | a) | (a | a)
  · simp only [rOf_update_r]
    exact ((HasDerivAt.fun_sum fun l _ => (hasDerivAt_rot h a k l).mul_const (pOf y l)).add_const (tOf y k)).sub_const (qOf y k)
  · refine hasDerivAt_affine fun s => ?_
    rw [update_eq_self]
    show _ + update y (.inl (.inr a)) s (.inl (.inr k)) - qOf y k = _ + y (.inl (.inr k)) - qOf y k + (s - y (.inl (.inr a))) * dl a k
    by_cases hk : k = a
    · subst hk
      rw [update_self, dl_same]
      show (∑ l, rotE (cof (len (rOf y))) (rOf y) k l * pOf y l) + _ - _ = _
      ring
    · rw [update_of_ne (by intro e; exact hk (Sum.inr.inj (Sum.inl.inj e))), dl, if_neg (Ne.symm hk), mul_zero, add_zero]
      rfl
  · refine hasDerivAt_affine fun s => ?_
    rw [update_eq_self]
    show (∑ l, rotE (cof (len (rOf y))) (rOf y) k l * update y (.inr (.inl a)) s (.inr (.inl l))) + tOf y k - qOf y k = _
    rw [nlD]
    have : ∀ l, rotE (cof (len (rOf y))) (rOf y) k l * update y (.inr (.inl a)) s (.inr (.inl l)) =
        rotE (cof (len (rOf y))) (rOf y) k l * pOf y l +
          if a = l then (s - y (.inr (.inl a))) * rotE (cof (len (rOf y))) (rOf y) k a else 0 := by
      intro l
      by_cases hl : a = l
      · subst hl
        rw [update_self, if_pos rfl]
        show _ = rotE (cof (len (rOf y))) (rOf y) k a * y (.inr (.inl a)) + _
        ring
      · rw [update_of_ne (by intro e; exact hl (Sum.inl.inj (Sum.inr.inj e)).symm), if_neg hl, add_zero]
        rfl
    simp only [this, Finset.sum_add_distrib, Finset.sum_ite_eq, Finset.mem_univ, if_true]
    ring
  · refine hasDerivAt_affine fun s => ?_
    rw [update_eq_self]
    show _ + tOf y k - update y (.inr (.inr a)) s (.inr (.inr k)) = _ + tOf y k - y (.inr (.inr k)) + (s - y (.inr (.inr a))) * -dl a k
    by_cases hk : k = a
    · subst hk
      rw [update_self, dl_same]
      show (∑ l, rotE (cof (len (rOf y))) (rOf y) k l * pOf y l) + _ - _ = _
      ring
    · rw [update_of_ne (by intro e; exact hk (Sum.inr.inj (Sum.inr.inj e))), dl, if_neg (Ne.symm hk), neg_zero, mul_zero, add_zero]
      rfl

theorem nlD_deriv {y : Var → ℝ} (h : rOf y ≠ 0) (k : Fin 3) (i : Fin 3 ⊕ Fin 3) (j : Var) :
    HasDerivAt (fun s => nlD k j (update y (.inl i) s)) (nlD2 k i j y) (y (.inl i)) := by
  rcases i with a | a
  · rcases j with (b | b) | (b | b)
    · simp only [nlD, nlD2, rOf_update_r]
      exact HasDerivAt.fun_sum fun l _ => (hasDerivAt_dRot h a b k l).mul_const (pOf y l)
    · exact hasDerivAt_const _ _
    · simp only [nlD, nlD2, rOf_update_r]
      exact hasDerivAt_rot h a k b
    · exact hasDerivAt_const _ _
  · rcases j with (b | b) | (b | b)
    · exact hasDerivAt_const (y (.inl (.inr a))) (nlD k (.inl (.inl b)) y)
    · exact hasDerivAt_const _ _
    · exact hasDerivAt_const (y (.inl (.inr a))) (nlD k (.inr (.inl b)) y)
    · exact hasDerivAt_const _ _

theorem point_second {w : Var → ℝ} (h : rOf w ≠ 0) (i : Fin 3 ⊕ Fin 3) (j : Var) :
    IsSecondPartial pointCost (.inl i) j w (2 * ∑ k, (nlD k (.inl i) w * nlD k j w + residual w k * nlD2 k i j w)) := by
  have : pointCost = fun w => ∑ k, residual w k ^ 2 := by
    funext w
    unfold pointCost dotProduct
    exact Finset.sum_congr rfl fun k _ => (sq _).symm
  rw [this]
  refine isSecondPartial_sum_sq (f := fun k w => residual w k) (D := fun k y => nlD k j y) ?_ (fun k => residual_deriv' h k _)
    (fun k => nlD_deriv h k i j)
  filter_upwards [eventually_ne h] with y hy
  exact fun k => residual_deriv' hy k j

theorem plane_second (n : Fin 3 → ℝ) {w : Var → ℝ} (h : rOf w ≠ 0) (i : Fin 3 ⊕ Fin 3) (j : Var) :
    IsSecondPartial (planeCost n) (.inl i) j w
      (2 * ((∑ k, n k * nlD k (.inl i) w) * (∑ k, n k * nlD k j w) + (∑ k, n k * residual w k) * ∑ k, n k * nlD2 k i j w)) := by
  have : planeCost n = fun w => ∑ _ : Unit, (∑ k, n k * residual w k) ^ 2 := by
    funext w
    rw [Fintype.sum_unique]
    rfl
  rw [this]
  have h := isSecondPartial_sum_sq (ι := Unit) (f := fun _ w => ∑ k, n k * residual w k) (D := fun _ y => ∑ k, n k * nlD k j y)
    (i := .inl i) (j := j) (x := w) (Di := fun _ => ∑ k, n k * nlD k (.inl i) w) (D2 := fun _ => ∑ k, n k * nlD2 k i j w)
    (by
      filter_upwards [eventually_ne h] with y hy
      exact fun _ => HasDerivAt.fun_sum fun k _ => (residual_deriv' hy k j).const_mul (n k))
    (fun _ => HasDerivAt.fun_sum fun k _ => (residual_deriv' h k _).const_mul (n k))
    (fun _ => HasDerivAt.fun_sum fun k _ => (nlD_deriv h k i j).const_mul (n k))
  rwa [Fintype.sum_unique] at h

end Icp

end Serpent
