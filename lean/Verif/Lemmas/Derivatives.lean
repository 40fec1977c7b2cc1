import Verif.Spec.Derivatives
import Mathlib.Analysis.Calculus.Deriv.Add
import Mathlib.Analysis.Calculus.Deriv.Mul
import Mathlib.Analysis.Calculus.Deriv.Pow
import Mathlib.Topology.Order.OrderClosed

/-!
# Second derivatives of sums of squares
-/

namespace Serpent

namespace Icp

open Matrix Topology Function

/-- The second partial derivative is unique. -/
theorem IsSecondPartial.unique {V : Type} [DecidableEq V] {F : (V → ℝ) → ℝ} {i j : V} {x : V → ℝ} {v v' : ℝ} (h : IsSecondPartial F i j x v)
    (h' : IsSecondPartial F i j x v') : v = v' := by
  obtain ⟨G, h1, h2⟩ := h
  obtain ⟨G', h1', h2'⟩ := h'
  have hG : ∀ᶠ y in 𝓝 x, G y = G' y := by
    filter_upwards [h1, h1'] with y a b
    exact a.unique b
  have hc : Filter.Tendsto (fun s => update x i s) (𝓝 (x i)) (𝓝 x) := by
    have : Continuous fun s => update x i s := continuous_const.update i continuous_id
    have := this.tendsto (x i)
    rwa [update_eq_self] at this
  exact h2.unique (h2'.congr_of_eventuallyEq (hc.eventually hG))

/-- A function that depends on a variable in an affine way. -/
theorem hasDerivAt_affine {f : ℝ → ℝ} {x d : ℝ} (h : ∀ s, f s = f x + (s - x) * d) : HasDerivAt f d x := by
  have : HasDerivAt (fun s : ℝ => f x + (s - x) * d) d x := by
    have h1 := ((hasDerivAt_id x).sub_const x).mul_const d
    have h2 := h1.const_add (f x)
    rwa [one_mul] at h2
  exact this.congr_of_eventuallyEq (Filter.Eventually.of_forall h)

/-- Second derivatives of a sum of squares of functions. -/
theorem isSecondPartial_sum_sq {ι : Type} [Fintype ι] {f : ι → (Var → ℝ) → ℝ} {D : ι → (Var → ℝ) → ℝ} {i j : Var} {x : Var → ℝ}
    {Di D2 : ι → ℝ}
    (hj : ∀ᶠ y in 𝓝 x, ∀ k, HasDerivAt (fun s => f k (update y j s)) (D k y) (y j))
    (hi : ∀ k, HasDerivAt (fun s => f k (update x i s)) (Di k) (x i))
    (h2 : ∀ k, HasDerivAt (fun s => D k (update x i s)) (D2 k) (x i)) :
    IsSecondPartial (fun w => ∑ k, f k w ^ 2) i j x (2 * ∑ k, (Di k * D k x + f k x * D2 k)) := by
  refine ⟨fun w => ∑ k, 2 * (f k w * D k w), ?_, ?_⟩
  · filter_upwards [hj] with y hy
    have : HasDerivAt (fun s => ∑ k, f k (update y j s) ^ 2) (∑ k, 2 * f k (update y j (y j)) * D k y) (y j) := by
      refine HasDerivAt.fun_sum fun k _ => ?_
      have := (hy k).fun_pow 2
      simpa using this
    rw [update_eq_self] at this
    simpa [mul_assoc] using this
  · have : HasDerivAt (fun s => ∑ k, 2 * (f k (update x i s) * D k (update x i s)))
        (∑ k, 2 * (Di k * D k (update x i (x i)) + f k (update x i (x i)) * D2 k)) (x i) := by
      refine HasDerivAt.fun_sum fun k _ => ?_
      exact ((hi k).mul (h2 k)).const_mul 2
    rw [update_eq_self] at this
    rw [Finset.mul_sum]
    exact this

/-- Second derivatives of a sum. -/
theorem IsSecondPartial.sum {V ι : Type} [DecidableEq V] [Fintype ι] {F : ι → (V → ℝ) → ℝ} {i j : V} {x : V → ℝ} {v : ι → ℝ}
    (h : ∀ k, IsSecondPartial (F k) i j x (v k)) : IsSecondPartial (fun w => ∑ k, F k w) i j x (∑ k, v k) := by
  choose G h1 h2 using h
  refine ⟨fun y => ∑ k, G k y, ?_, HasDerivAt.fun_sum fun k _ => h2 k⟩
  filter_upwards [Filter.eventually_all.2 h1] with y hy
  exact HasDerivAt.fun_sum fun k _ => hy k

/-- A function that does not depend on variable `j`. -/
theorem isSecondPartial_const {V : Type} [DecidableEq V] {F : (V → ℝ) → ℝ} {i j : V} {x : V → ℝ}
    (h : ∀ y s, F (update y j s) = F y) : IsSecondPartial F i j x 0 := by
  refine ⟨fun _ => 0, Filter.Eventually.of_forall fun y => ?_, hasDerivAt_const _ _⟩
  have : (fun s => F (update y j s)) = fun _ => F y := funext fun s => h y s
  rw [this]
  exact hasDerivAt_const _ _

/-- Renaming of variables. -/
theorem IsSecondPartial.comp {V W : Type} [DecidableEq V] [DecidableEq W] {F : (V → ℝ) → ℝ} {i j : V} {i' j' : W}
    {g : (W → ℝ) → V → ℝ} {x : W → ℝ} {v : ℝ} (h : IsSecondPartial F i j (g x) v) (hc : Continuous g)
    (hi : ∀ y s, g (update y i' s) = update (g y) i s) (hj : ∀ y s, g (update y j' s) = update (g y) j s)
    (hi' : ∀ y, g y i = y i') (hj' : ∀ y, g y j = y j') : IsSecondPartial (fun w => F (g w)) i' j' x v := by
  obtain ⟨G, h1, h2⟩ := h
  refine ⟨fun y => G (g y), ?_, ?_⟩
  · filter_upwards [hc.continuousAt.eventually h1] with y hy
    simpa only [hj, hj'] using hy
  · simpa only [hi, hi'] using h2

theorem varsOf_continuous {n : Nat} (k : Fin n) : Continuous fun w : AllVar n → ℝ => varsOf w k := by
  refine continuous_pi fun i => ?_
  rcases i with i | i
  · exact continuous_apply _
  · exact continuous_apply _

theorem varsOf_update_pose {n : Nat} (k : Fin n) (w : AllVar n → ℝ) (i : Fin 3 ⊕ Fin 3) (s : ℝ) :
    varsOf (update w (.inl i) s) k = update (varsOf w k) (.inl i) s := by
  funext j
  rcases j with j | j
  · by_cases h : j = i
    · subst h; simp [varsOf]
    · have h1 : (Sum.inl j : AllVar n) ≠ .inl i := fun e => h (Sum.inl.inj e)
      have h2 : (Sum.inl j : Var) ≠ .inl i := fun e => h (Sum.inl.inj e)
      show update w (.inl i) s (.inl j) = _
      rw [update_of_ne h1, update_of_ne h2]
      rfl
  · simp [varsOf]

theorem varsOf_update_meas {n : Nat} (k : Fin n) (w : AllVar n → ℝ) (i : Fin 3 ⊕ Fin 3) (s : ℝ) :
    varsOf (update w (.inr (k, i)) s) k = update (varsOf w k) (.inr i) s := by
  funext j
  rcases j with j | j
  · simp [varsOf]
  · by_cases h : j = i
    · subst h; simp [varsOf]
    · have h1 : (Sum.inr (k, j) : AllVar n) ≠ .inr (k, i) := fun e => h (congrArg Prod.snd (Sum.inr.inj e))
      have h2 : (Sum.inr j : Var) ≠ .inr i := fun e => h (Sum.inr.inj e)
      show update w (.inr (k, i)) s (.inr (k, j)) = _
      rw [update_of_ne h1, update_of_ne h2]
      rfl

theorem varsOf_update_other {n : Nat} {k k' : Fin n} (hk : k ≠ k') (w : AllVar n → ℝ) (i : Fin 3 ⊕ Fin 3) (s : ℝ) :
    varsOf (update w (.inr (k', i)) s) k = varsOf w k := by
  funext j
  rcases j with j | j
  · simp [varsOf]
  · have h1 : (Sum.inr (k, j) : AllVar n) ≠ .inr (k', i) := fun e => hk (congrArg Prod.fst (Sum.inr.inj e))
    show update w (.inr (k', i)) s (.inr (k, j)) = _
    rw [update_of_ne h1]
    rfl

/-- Second derivatives of the cost of many correspondences by the pose. -/
theorem totalCost_pose {n : Nat} {cost : Fin n → (Var → ℝ) → ℝ} {w : AllVar n → ℝ} {i j : Fin 3 ⊕ Fin 3} {v : Fin n → ℝ}
    (h : ∀ k, IsSecondPartial (cost k) (.inl i) (.inl j) (varsOf w k) (v k)) :
    IsSecondPartial (totalCost cost) (.inl i) (.inl j) w (∑ k, v k) :=
  IsSecondPartial.sum fun k => (h k).comp (g := fun w => varsOf w k) (varsOf_continuous k) (fun y s => varsOf_update_pose k y i s)
    (fun y s => varsOf_update_pose k y j s) (fun _ => rfl) (fun _ => rfl)

/-- Mixed second derivatives of the cost of many correspondences. -/
theorem totalCost_mixed {n : Nat} {cost : Fin n → (Var → ℝ) → ℝ} {w : AllVar n → ℝ} {i j : Fin 3 ⊕ Fin 3} {k : Fin n} {v : ℝ}
    (h : IsSecondPartial (cost k) (.inl i) (.inr j) (varsOf w k) v) :
    IsSecondPartial (totalCost cost) (.inl i) (.inr (k, j)) w v := by
  have : IsSecondPartial (totalCost cost) (.inl i) (.inr (k, j)) w (∑ l, if l = k then v else 0) := by
    refine IsSecondPartial.sum fun l => ?_
    by_cases hl : l = k
    · rw [if_pos hl, hl]
      exact h.comp (g := fun w => varsOf w k) (varsOf_continuous k) (fun y s => varsOf_update_pose k y i s)
        (fun y s => varsOf_update_meas k y j s) (fun _ => rfl) (fun _ => rfl)
    · rw [if_neg hl]
      exact isSecondPartial_const fun y s => by rw [varsOf_update_other hl]
  simpa using this

end Icp

end Serpent
