import Verif.Lemmas.TrajectoryLib
import Mathlib.Analysis.SpecialFunctions.Trigonometric.Deriv
import Mathlib.Analysis.Calculus.Deriv.Pow

/-! # Lemmas about the alignment of trajectories -/

namespace Serpent

namespace Trajectory

open EigenExt Matrix

/-! ### Rotations -/

theorem norm3_sqrt (r : Fin 3 → ℝ) : norm3 r = Real.sqrt (∑ i, r i ^ 2) := by
  rw [Fin.sum_univ_three]
  rfl

theorem angleAxisMatrix_eq {a : ℝ} {u : Fin 3 → ℝ} (h1 : u 0 ^ 2 + u 1 ^ 2 + u 2 ^ 2 = 1) : angleAxisMatrix a u = rodrigues a u := by
  funext i j
  fin_cases i <;> fin_cases j <;>
    simp [angleAxisMatrix, rodrigues, skewOf] <;>
    first
    | linear_combination (1 - Real.cos a) * h1
    | ring

theorem unit_div {r : Fin 3 → ℝ} (h : norm3 r ≠ 0) : (r 0 / norm3 r) ^ 2 + (r 1 / norm3 r) ^ 2 + (r 2 / norm3 r) ^ 2 = 1 := by
  rw [div_pow, div_pow, div_pow, ← add_div, ← add_div, ← norm3_sq, div_self (pow_ne_zero 2 h)]

/-- The matrix of the code is the rotation of the vector, if there is one. -/
theorem axang2rotm_some {r : Fin 3 → ℝ} {R : Matrix (Fin 3) (Fin 3) ℝ} (h : axang2rotm r = some R) : R = expRotation r := by
  unfold axang2rotm at h
  split at h
  · exact absurd h (by simp)
  · rename_i hn
    obtain rfl := Option.some.inj h
    rw [angleAxisMatrix_eq (unit_div hn)]
    unfold expRotation
    rw [← norm3_sqrt]
    show _ = if norm3 r = 0 then 1 else _
    rw [if_neg hn]

theorem rodrigues_rotation {a : ℝ} {u : Fin 3 → ℝ} (h1 : u 0 ^ 2 + u 1 ^ 2 + u 2 ^ 2 = 1) : Quat.Rotation (rodrigues a u) := by
  have hsq : Real.sin (a / 2) ^ 2 + Real.cos (a / 2) ^ 2 = 1 := Real.sin_sq_add_cos_sq (a / 2)
  have hq : Quat.Unit ⟨Real.cos (a / 2), Real.sin (a / 2) * u 0, Real.sin (a / 2) * u 1, Real.sin (a / 2) * u 2⟩ := by
    unfold Quat.Unit
    linear_combination hsq + Real.sin (a / 2) ^ 2 * h1
  have hs : Real.sin a = 2 * Real.sin (a / 2) * Real.cos (a / 2) := by
    rw [← Real.sin_two_mul, mul_div_cancel₀ a (by norm_num : (2 : ℝ) ≠ 0)]
  have hc : Real.cos a = 2 * Real.cos (a / 2) ^ 2 - 1 := by
    rw [← Real.cos_two_mul, mul_div_cancel₀ a (by norm_num : (2 : ℝ) ≠ 0)]
  have e : rodrigues a u = (⟨Real.cos (a / 2), Real.sin (a / 2) * u 0, Real.sin (a / 2) * u 1, Real.sin (a / 2) * u 2⟩ : Quat).toMatrix := by
    generalize Real.sin (a / 2) = s at *
    generalize Real.cos (a / 2) = c at *
    have hs2 : s ^ 2 = 1 - c ^ 2 := by linear_combination hsq
    funext i j
    fin_cases i <;> fin_cases j <;>
      simp [rodrigues, skewOf, Quat.toMatrix, hs, hc] <;>
      ring_nf <;> simp only [hs2] <;> ring
  rw [e]
  exact hq.rotation

theorem expRotation_rotation (r : Fin 3 → ℝ) : Quat.Rotation (expRotation r) := by
  unfold expRotation
  rw [← norm3_sqrt]
  show Quat.Rotation (if norm3 r = 0 then 1 else _)
  split
  · exact ⟨by simp, by simp⟩
  · rename_i hn
    exact rodrigues_rotation (unit_div hn)

/-- Along a line through zero. -/
theorem expRotation_smul (s : ℝ) {v : Fin 3 → ℝ} (h : norm3 v ≠ 0) :
    expRotation (s • v) = rodrigues (s * norm3 v) (fun i => v i / norm3 v) := by
  have hs : norm3 (s • v) = |s| * norm3 v := by
    unfold norm3
    rw [← Real.sqrt_sq_eq_abs, ← Real.sqrt_mul (sq_nonneg s)]
    congr 1
    simp only [Pi.smul_apply, smul_eq_mul]
    ring
  unfold expRotation
  rw [← norm3_sqrt, hs]
  show (if |s| * norm3 v = 0 then 1 else rodrigues (|s| * norm3 v) (fun i => (s • v) i / (|s| * norm3 v))) = _
  by_cases h0 : s = 0
  · subst h0
    simp [rodrigues]
  · rw [if_neg (mul_ne_zero (abs_ne_zero.2 h0) h)]
    rcases lt_or_gt_of_ne h0 with hn | hp
    · rw [abs_of_neg hn]
      have e : (fun i => (s • v) i / (-s * norm3 v)) = fun i => -(v i / norm3 v) := by
        funext i
        simp only [Pi.smul_apply, smul_eq_mul]
        field_simp
      rw [e, neg_mul]
      have e2 : skewOf (fun i => -(v i / norm3 v)) = -skewOf (fun i => v i / norm3 v) := by
        funext i j
        fin_cases i <;> fin_cases j <;> simp [skewOf]
      unfold rodrigues
      rw [e2, Real.sin_neg, Real.cos_neg, neg_smul_neg, neg_mul_neg]
    · rw [abs_of_pos hp]
      congr 1
      funext i
      simp only [Pi.smul_apply, smul_eq_mul]
      field_simp

theorem expRotation_zero : expRotation 0 = 1 := by simp [expRotation]

theorem norm3_eq_zero {v : Fin 3 → ℝ} (h : norm3 v = 0) : v = 0 := by
  have := norm3_sq v
  rw [h] at this
  have h0 := sq_nonneg (v 0)
  have h1 := sq_nonneg (v 1)
  have h2 := sq_nonneg (v 2)
  funext i
  fin_cases i <;> exact pow_eq_zero_iff (n := 2) (by norm_num) |>.1 (by simp only [Fin.zero_eta, Fin.mk_one, Fin.reduceFinMk]; nlinarith)

/-- The derivative of a rotation about a direction at zero. -/
theorem hasDerivAt_expRotation (v : Fin 3 → ℝ) (k j : Fin 3) :
    HasDerivAt (fun s : ℝ => expRotation (s • v) k j) (skewOf v k j) 0 := by
  by_cases h : norm3 v = 0
  · obtain rfl := norm3_eq_zero h
    have e : (fun s : ℝ => expRotation (s • (0 : Fin 3 → ℝ)) k j) = fun _ => (1 : Matrix (Fin 3) (Fin 3) ℝ) k j := by
      funext s
      rw [smul_zero, expRotation_zero]
    rw [e]
    have e2 : skewOf (0 : Fin 3 → ℝ) k j = 0 := by
      fin_cases k <;> fin_cases j <;> simp [skewOf]
    rw [e2]
    exact hasDerivAt_const _ _
  · have e : (fun s : ℝ => expRotation (s • v) k j) = fun s : ℝ =>
        (1 : Matrix (Fin 3) (Fin 3) ℝ) k j + Real.sin (s * norm3 v) * skewOf (fun i => v i / norm3 v) k j +
        (1 - Real.cos (s * norm3 v)) * (skewOf (fun i => v i / norm3 v) * skewOf (fun i => v i / norm3 v)) k j := by
      funext s
      rw [expRotation_smul s h]
      rfl
    rw [e]
    have hm : HasDerivAt (fun s : ℝ => s * norm3 v) (norm3 v) 0 := by simpa using (hasDerivAt_id (0 : ℝ)).mul_const (norm3 v)
    have h1 := (hm.sin.mul_const (skewOf (fun i => v i / norm3 v) k j)).const_add ((1 : Matrix (Fin 3) (Fin 3) ℝ) k j)
    have h2 := (hm.cos.const_sub 1).mul_const ((skewOf (fun i => v i / norm3 v) * skewOf (fun i => v i / norm3 v)) k j)
    refine (h1.add h2).congr_deriv ?_
    have e2 : norm3 v * skewOf (fun i => v i / norm3 v) k j = skewOf v k j := by
      fin_cases k <;> fin_cases j <;> simp [skewOf] <;> field_simp
    simp only [zero_mul, Real.cos_zero, Real.sin_zero, one_mul, neg_zero, add_zero, neg_mul, zero_mul]
    exact e2

/-! ### The loss -/

/-- The loss from an exponent on. -/
noncomputable def lossFrom (gamma : ℝ) (R : Matrix (Fin 3) (Fin 3) ℝ) (t : Fin 3 → ℝ) : Nat → List ((Fin 3 → ℝ) × (Fin 3 → ℝ)) → ℝ
  | _, [] => 0
  | i, e :: es => gamma ^ i * ∑ k, residual R t e k ^ 2 + lossFrom gamma R t (i + 1) es

theorem distance_sq (a b : Fin 3 → ℝ) : distance a b ^ 2 = ∑ k, (a k - b k) ^ 2 := by
  unfold distance
  exact Real.sq_sqrt (Finset.sum_nonneg fun k _ => sq_nonneg _)

theorem lossFrom_eq (gamma : ℝ) (R : Matrix (Fin 3) (Fin 3) ℝ) (t : Fin 3 → ℝ) : ∀ (es : List ((Fin 3 → ℝ) × (Fin 3 → ℝ))) (i : Nat),
    ((es.zipIdx i).map fun e => gamma ^ e.2 * distance (R *ᵥ e.1.1 + t) e.1.2 ^ 2).sum = lossFrom gamma R t i es
  | [], i => by simp [lossFrom]
  | e :: es, i => by
    rw [List.zipIdx_cons, List.map_cons, List.sum_cons, lossFrom_eq gamma R t es (i + 1), lossFrom, distance_sq]
    rfl

theorem loss_eq (gamma : ℝ) (R : Matrix (Fin 3) (Fin 3) ℝ) (t : Fin 3 → ℝ) (es : List ((Fin 3 → ℝ) × (Fin 3 → ℝ))) :
    loss gamma R t es = lossFrom gamma R t 0 es := lossFrom_eq gamma R t es 0

/-- The derivative of the loss from the derivative `D` of the rotation and `w` of the translation. -/
noncomputable def lossDeriv (gamma : ℝ) (R D : Matrix (Fin 3) (Fin 3) ℝ) (t w : Fin 3 → ℝ) :
    Nat → List ((Fin 3 → ℝ) × (Fin 3 → ℝ)) → ℝ
  | _, [] => 0
  | i, e :: es => gamma ^ i * (2 * ((D *ᵥ e.1 + w) ⬝ᵥ residual R t e)) + lossDeriv gamma R D t w (i + 1) es

theorem hasDerivAt_residual {F : ℝ → Matrix (Fin 3) (Fin 3) ℝ} {D : Matrix (Fin 3) (Fin 3) ℝ}
    (hF : ∀ k j, HasDerivAt (fun s => F s k j) (D k j) 0) (t w : Fin 3 → ℝ) (e : (Fin 3 → ℝ) × (Fin 3 → ℝ)) (k : Fin 3) :
    HasDerivAt (fun s : ℝ => residual (F s) (t + s • w) e k) ((D *ᵥ e.1 + w) k) 0 := by
  have h1 : HasDerivAt (fun s : ℝ => (t + s • w) k) (w k) 0 := by
    have := ((hasDerivAt_id (0 : ℝ)).mul_const (w k)).const_add (t k)
    simpa using this
  have h2 : HasDerivAt (fun s : ℝ => (F s *ᵥ e.1) k) ((D *ᵥ e.1) k) 0 := by
    simp only [mulVec, dotProduct, Fin.sum_univ_three]
    exact (((hF k 0).mul_const _).add ((hF k 1).mul_const _)).add ((hF k 2).mul_const _)
  exact (h2.add h1).sub_const (e.2 k)

theorem hasDerivAt_lossFrom (gamma : ℝ) {F : ℝ → Matrix (Fin 3) (Fin 3) ℝ} {D : Matrix (Fin 3) (Fin 3) ℝ}
    (hF : ∀ k j, HasDerivAt (fun s => F s k j) (D k j) 0) (t w : Fin 3 → ℝ) : ∀ (es : List ((Fin 3 → ℝ) × (Fin 3 → ℝ))) (i : Nat),
    HasDerivAt (fun s : ℝ => lossFrom gamma (F s) (t + s • w) i es) (lossDeriv gamma (F 0) D t w i es) 0
  | [], i => by
    simp only [lossFrom, lossDeriv]
    exact hasDerivAt_const _ _
  | e :: es, i => by
    have ih := hasDerivAt_lossFrom gamma hF t w es (i + 1)
    have hr := hasDerivAt_residual hF t w e
    have h1 : HasDerivAt (fun s : ℝ => ∑ k, residual (F s) (t + s • w) e k ^ 2) (2 * ((D *ᵥ e.1 + w) ⬝ᵥ residual (F 0) t e)) 0 := by
      simp only [Fin.sum_univ_three]
      refine ((((hr 0).fun_pow 2).add ((hr 1).fun_pow 2)).add ((hr 2).fun_pow 2)).congr_deriv ?_
      simp only [zero_smul, add_zero, dotProduct, Fin.sum_univ_three]
      push_cast
      ring
    exact (h1.const_mul (gamma ^ i)).add ih

/-- Without a rotation: the code's gradient. -/
theorem lossDeriv_one (gamma : ℝ) (t v w : Fin 3 → ℝ) : ∀ (es : List ((Fin 3 → ℝ) × (Fin 3 → ℝ))) (i : Nat),
    lossDeriv gamma 1 (skewOf v) t w i es = 2 * (v ⬝ᵥ gradR gamma 1 t i es + w ⬝ᵥ gradT gamma 1 t i es)
  | [], i => by simp [lossDeriv, gradR, gradT]
  | e :: es, i => by
    rw [lossDeriv, gradR, gradT, lossDeriv_one gamma t v w es (i + 1)]
    generalize residual 1 t e = ρ
    simp only [dotProduct_add, dotProduct_smul, smul_eq_mul]
    have : (skewOf v *ᵥ e.1 + w) ⬝ᵥ ρ = v ⬝ᵥ (skew e.1 *ᵥ ρ) + w ⬝ᵥ ρ := by
      simp only [dotProduct, mulVec, Fin.sum_univ_three, skewOf, skew, Pi.add_apply]
      simp
      ring
    rw [this]
    ring

/-- The translation alone: the code's gradient. -/
theorem lossDeriv_zero (gamma : ℝ) (R : Matrix (Fin 3) (Fin 3) ℝ) (t w : Fin 3 → ℝ) : ∀ (es : List ((Fin 3 → ℝ) × (Fin 3 → ℝ))) (i : Nat),
    lossDeriv gamma R 0 t w i es = 2 * (w ⬝ᵥ gradT gamma R t i es)
  | [], i => by simp [lossDeriv, gradT]
  | e :: es, i => by
    rw [lossDeriv, gradT, lossDeriv_zero gamma R t w es (i + 1)]
    simp only [dotProduct_add, dotProduct_smul, smul_eq_mul, zero_mulVec, zero_add]
    ring

/-! ### The loop -/

theorem clamp_le {m : ℝ} (h : 0 ≤ m) (x : ℝ) : |clamp m x| ≤ m := by
  unfold clamp
  rw [abs_le]
  refine ⟨?_, min_le_right _ _⟩
  exact le_min (le_max_right _ _) (by linarith)

theorem alignLoop_R (o : OptParams) (es : List ((Fin 3 → ℝ) × (Fin 3 → ℝ))) (n : Nat) {R : Matrix (Fin 3) (Fin 3) ℝ}
    (h : (alignLoop o es n).R = some R) : R = expRotation (alignLoop o es n).r := by
  cases n with
  | zero =>
    obtain rfl := Option.some.inj h
    exact expRotation_zero.symm
  | succ n =>
    simp only [alignLoop, alignStep] at h ⊢
    split at h
    · exact axang2rotm_some h
    · exact axang2rotm_some h

theorem gradR_zero (gamma : ℝ) (R : Matrix (Fin 3) (Fin 3) ℝ) (t : Fin 3 → ℝ) : ∀ (es : List ((Fin 3 → ℝ) × (Fin 3 → ℝ))) (i : Nat),
    (∀ e ∈ es, residual R t e = 0) → gradR gamma R t i es = 0
  | [], _, _ => rfl
  | e :: es, i, h => by
    rw [gradR, h e List.mem_cons_self, mulVec_zero, smul_zero, zero_add]
    exact gradR_zero gamma R t es (i + 1) fun x hx => h x (List.mem_cons_of_mem _ hx)

theorem gradT_zero (gamma : ℝ) (R : Matrix (Fin 3) (Fin 3) ℝ) (t : Fin 3 → ℝ) : ∀ (es : List ((Fin 3 → ℝ) × (Fin 3 → ℝ))) (i : Nat),
    (∀ e ∈ es, residual R t e = 0) → gradT gamma R t i es = 0
  | [], _, _ => rfl
  | e :: es, i, h => by
    rw [gradT, h e List.mem_cons_self, smul_zero, zero_add]
    exact gradT_zero gamma R t es (i + 1) fun x hx => h x (List.mem_cons_of_mem _ hx)

theorem clamp_zero {m : ℝ} (h : 0 ≤ m) : clamp m 0 = 0 := by
  unfold clamp
  rw [max_eq_left (by linarith), min_eq_left h]

end Trajectory

end Serpent
