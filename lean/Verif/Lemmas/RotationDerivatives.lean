import Verif.Lemmas.IcpCanonical
import Verif.Lemmas.Derivatives
import Verif.Spec.IcpNonlinear
import Mathlib.Analysis.SpecialFunctions.Trigonometric.Deriv
import Mathlib.Analysis.SpecialFunctions.Sqrt
import Mathlib.Analysis.Calculus.Deriv.Inv

/-!
# Derivatives of a rotation by its rotation vector
-/

namespace Serpent

namespace Icp

open Matrix Topology Function EigenExt

/-- Length of a vector. -/
noncomputable def len (r : Fin 3 → ℝ) : ℝ := Real.sqrt (∑ i, r i ^ 2)

/-- The coefficients of a rotation by the angle `a`. -/
noncomputable def cof (a : ℝ) : Coefs := coefs a (Real.cos a) (Real.sin a)

theorem sumsq_nonneg (r : Fin 3 → ℝ) : 0 ≤ ∑ i, r i ^ 2 := Finset.sum_nonneg fun i _ => sq_nonneg _

theorem len_ne_zero {r : Fin 3 → ℝ} (h : r ≠ 0) : len r ≠ 0 := by
  unfold len
  rw [ne_eq, Real.sqrt_eq_zero (sumsq_nonneg r), Finset.sum_eq_zero_iff_of_nonneg fun i _ => sq_nonneg _]
  intro c
  apply h
  funext i
  simpa using c i (Finset.mem_univ i)

theorem len_sq (r : Fin 3 → ℝ) : len r ^ 2 = r 0 ^ 2 + r 1 ^ 2 + r 2 ^ 2 := by
  unfold len
  rw [Real.sq_sqrt (sumsq_nonneg r), Fin.sum_univ_three]

/-- The rotation is the combination of three matrices. -/
theorem expRotation_eq {r : Fin 3 → ℝ} (h : r ≠ 0) (k j : Fin 3) : expRotation r k j = rotE (cof (len r)) r k j := by
  have ha := len_ne_zero h
  have hs := len_sq r
  unfold expRotation
  show (if len r = 0 then (1 : Matrix (Fin 3) (Fin 3) ℝ) else rodrigues (len r) fun i => r i / len r) k j = _
  rw [if_neg ha]
  generalize len r = a at ha hs
  have h0 : r 0 ^ 2 = a ^ 2 - r 1 ^ 2 - r 2 ^ 2 := by linarith
  unfold rodrigues skewOf rotE cof coefs
  fin_cases k <;> fin_cases j <;>
    simp [sk00, sk01, sk02, sk10, sk11, sk12, sk20, sk21, sk22, dl_same, dl01, dl02, dl10, dl12, dl20, dl21] <;> field_simp <;>
    (try simp only [h0]) <;> ring

/-! ### Functions of the length -/

theorem hasDerivAt_len {r : Fin 3 → ℝ} (h : r ≠ 0) (i : Fin 3) :
    HasDerivAt (fun s => len (update r i s)) (r i / len r) (r i) := by
  have ha := len_ne_zero h
  have h1 : HasDerivAt (fun s => ∑ k, update r i s k ^ 2) (2 * r i) (r i) := by
    have : HasDerivAt (fun s => ∑ k, update r i s k ^ 2) (∑ k, 2 * r k * dl i k) (r i) := by
      refine HasDerivAt.fun_sum fun k _ => ?_
      by_cases hk : k = i
      · subst hk
        simp only [update_self, dl_same]
        have := (hasDerivAt_id (r k)).fun_pow 2
        simpa using this
      · simp only [update_of_ne hk, dl, if_neg (Ne.symm hk), mul_zero]
        exact hasDerivAt_const _ _
    convert this using 1
    simp [dl]
  have h2 := h1.sqrt (by
    rw [update_eq_self]
    intro c
    exact ha (by unfold len; rw [c, Real.sqrt_zero]))
  rw [update_eq_self] at h2
  refine HasDerivAt.congr_deriv (f := fun s => len (update r i s)) h2 ?_
  show 2 * r i / (2 * len r) = r i / len r
  field_simp

theorem hasDerivAt_radial {φ ψ : ℝ → ℝ} (hφ : ∀ a, a ≠ 0 → HasDerivAt φ (a * ψ a) a) {r : Fin 3 → ℝ} (h : r ≠ 0) (i : Fin 3) :
    HasDerivAt (fun s => φ (len (update r i s))) (ψ (len r) * r i) (r i) := by
  have ha := len_ne_zero h
  have h1 := hasDerivAt_len h i
  have h2 : HasDerivAt φ (len r * ψ (len r)) (len (update r i (r i))) := by rw [update_eq_self]; exact hφ _ ha
  refine (h2.comp (r i) h1).congr_deriv ?_
  field_simp

theorem deriv_f (a : ℝ) (ha : a ≠ 0) : HasDerivAt (fun a => (cof a).f) (a * -(cof a).g) a := by
  refine HasDerivAt.congr_deriv (f := fun a => (cof a).f) (Real.hasDerivAt_cos a) ?_
  simp only [cof, coefs]
  field_simp

theorem deriv_g (a : ℝ) (ha : a ≠ 0) : HasDerivAt (fun a => (cof a).g) (a * (cof a).g1) a := by
  refine HasDerivAt.congr_deriv (f := fun a => (cof a).g) ((Real.hasDerivAt_sin a).div (hasDerivAt_id a) ha) ?_
  simp only [cof, coefs, id]
  field_simp

theorem deriv_h (a : ℝ) (ha : a ≠ 0) : HasDerivAt (fun a => (cof a).h) (a * (cof a).h1) a := by
  refine HasDerivAt.congr_deriv (f := fun a => (cof a).h)
    (((Real.hasDerivAt_cos a).const_sub 1).div ((hasDerivAt_id a).fun_pow 2) (pow_ne_zero 2 ha)) ?_
  simp only [cof, coefs, id]
  field_simp
  push_cast
  ring

theorem deriv_g1 (a : ℝ) (ha : a ≠ 0) : HasDerivAt (fun a => (cof a).g1) (a * (cof a).g2) a := by
  refine HasDerivAt.congr_deriv (f := fun a => (cof a).g1)
    ((((hasDerivAt_id a).mul (Real.hasDerivAt_cos a)).sub (Real.hasDerivAt_sin a)).div ((hasDerivAt_id a).fun_pow 3) (pow_ne_zero 3 ha)) ?_
  simp only [cof, coefs, id, Pi.mul_apply, Pi.sub_apply]
  field_simp
  push_cast
  ring

theorem deriv_h1 (a : ℝ) (ha : a ≠ 0) : HasDerivAt (fun a => (cof a).h1) (a * (cof a).h2) a := by
  refine HasDerivAt.congr_deriv (f := fun a => (cof a).h1)
    ((((hasDerivAt_id a).mul (Real.hasDerivAt_sin a)).sub (((Real.hasDerivAt_cos a).const_sub 1).const_mul 2)).div
      ((hasDerivAt_id a).fun_pow 4) (pow_ne_zero 4 ha)) ?_
  simp only [cof, coefs, id, Pi.mul_apply, Pi.sub_apply]
  field_simp
  push_cast
  ring

/-! ### The entries of the rotation -/

theorem hasDerivAt_coord (r : Fin 3 → ℝ) (i k : Fin 3) : HasDerivAt (fun s => update r i s k) (dl i k) (r i) := by
  by_cases hk : k = i
  · subst hk
    simp only [update_self, dl_same]
    exact hasDerivAt_id _
  · simp only [update_of_ne hk, dl, if_neg (Ne.symm hk)]
    exact hasDerivAt_const _ _

theorem hasDerivAt_sk (r : Fin 3 → ℝ) (i k j : Fin 3) : HasDerivAt (fun s => sk (update r i s) k j) (sk (bs i) k j) (r i) := by
  have hc := hasDerivAt_coord r i
  fin_cases k <;> fin_cases j <;> simp only [Fin.zero_eta, Fin.mk_one, Fin.reduceFinMk, sk00, sk01, sk02, sk10, sk11, sk12, sk20,
    sk21, sk22]
  all_goals first
    | exact hasDerivAt_const _ _
    | exact hc _
    | exact (hc _).neg

theorem hasDerivAt_mul' {f g : ℝ → ℝ} {f' g' x fx gx : ℝ} (hf : HasDerivAt f f' x) (hg : HasDerivAt g g' x) (hfx : f x = fx)
    (hgx : g x = gx) : HasDerivAt (fun s => f s * g s) (f' * gx + fx * g') x := by
  subst hfx hgx
  exact hf.mul hg

theorem hasDerivAt_rot {r : Fin 3 → ℝ} (h : r ≠ 0) (i k j : Fin 3) :
    HasDerivAt (fun s => rotE (cof (len (update r i s))) (update r i s) k j) (dRotE (cof (len r)) r i k j) (r i) := by
  have hself : update r i (r i) = r := update_eq_self i r
  have hf := hasDerivAt_radial deriv_f h i
  have hg := hasDerivAt_radial deriv_g h i
  have hh := hasDerivAt_radial deriv_h h i
  have hs := hasDerivAt_sk r i k j
  have hk := hasDerivAt_coord r i k
  have hj := hasDerivAt_coord r i j
  have h1 := hf.mul_const (dl k j)
  have h2 := hasDerivAt_mul' hg hs rfl rfl
  have h3 := hasDerivAt_mul' hh (hasDerivAt_mul' hk hj rfl rfl) rfl rfl
  have := (h1.add h2).add h3
  simp only [hself] at this
  refine this.congr_deriv ?_
  unfold dRotE
  ring

theorem hasDerivAt_dRot {r : Fin 3 → ℝ} (h : r ≠ 0) (i j k l : Fin 3) :
    HasDerivAt (fun s => dRotE (cof (len (update r i s))) (update r i s) j k l) (ddRotE (cof (len r)) r i j k l) (r i) := by
  have hself : update r i (r i) = r := update_eq_self i r
  have hg := hasDerivAt_radial deriv_g h i
  have hh := hasDerivAt_radial deriv_h h i
  have hg1 := hasDerivAt_radial deriv_g1 h i
  have hh1 := hasDerivAt_radial deriv_h1 h i
  have hs := hasDerivAt_sk r i k l
  have hk := hasDerivAt_coord r i k
  have hl := hasDerivAt_coord r i l
  have hj := hasDerivAt_coord r i j
  have a1 := ((hasDerivAt_mul' hg hj rfl rfl).neg).mul_const (dl k l)
  have a2 := hasDerivAt_mul' (hasDerivAt_mul' hg1 hj rfl rfl) hs rfl rfl
  have a3 := hg.mul_const (sk (bs j) k l)
  have a4 := hasDerivAt_mul' (hasDerivAt_mul' hh1 hj rfl rfl) (hasDerivAt_mul' hk hl rfl rfl) rfl rfl
  have a5 := hasDerivAt_mul' hh ((hl.const_mul (dl j k)).add (hk.mul_const (dl j l))) rfl rfl
  have := (a1.add (a2.add a3)).add (a4.add a5)
  simp only [hself, Pi.add_apply] at this
  refine this.congr_deriv ?_
  unfold ddRotE
  ring

end Icp

end Serpent
