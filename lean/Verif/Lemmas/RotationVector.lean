import Verif.Lemmas.Quaternion

/-!
# The rotation vector of a rotation by less than a half turn is unique
-/

namespace Serpent

open Matrix

/-- Trace and skew part of the rotation of a rotation vector. -/
theorem expRotation_entries (u : Fin 3 → ℝ) :
    ∃ s : ℝ, (s = if Real.sqrt (∑ i, u i ^ 2) = 0 then 1 else Real.sin (Real.sqrt (∑ i, u i ^ 2)) / Real.sqrt (∑ i, u i ^ 2)) ∧
      (expRotation u).trace = 1 + 2 * Real.cos (Real.sqrt (∑ i, u i ^ 2)) ∧
      expRotation u 2 1 - expRotation u 1 2 = 2 * s * u 0 ∧
      expRotation u 0 2 - expRotation u 2 0 = 2 * s * u 1 ∧
      expRotation u 1 0 - expRotation u 0 1 = 2 * s * u 2 := by
  refine ⟨_, rfl, ?_⟩
  set a := Real.sqrt (∑ i, u i ^ 2) with ha
  have hsq : a ^ 2 = u 0 ^ 2 + u 1 ^ 2 + u 2 ^ 2 := by
    rw [ha, Real.sq_sqrt (Finset.sum_nonneg fun i _ => sq_nonneg _), Fin.sum_univ_three]
  by_cases h0 : a = 0
  · have hz : u 0 = 0 ∧ u 1 = 0 ∧ u 2 = 0 := by
      rw [h0] at hsq
      refine ⟨?_, ?_, ?_⟩ <;> nlinarith [sq_nonneg (u 0), sq_nonneg (u 1), sq_nonneg (u 2)]
    have : expRotation u = 1 := by unfold expRotation; exact if_pos h0
    rw [this, h0, hz.1, hz.2.1, hz.2.2]
    simp
    norm_num
  · have : expRotation u = rodrigues a (fun i => u i / a) := by unfold expRotation; exact if_neg h0
    rw [this, if_neg h0]
    have hone : (u 0 / a) ^ 2 + (u 1 / a) ^ 2 + (u 2 / a) ^ 2 = 1 := by
      rw [div_pow, div_pow, div_pow, ← add_div, ← add_div, ← hsq]
      exact div_self (pow_ne_zero 2 h0)
    refine ⟨?_, ?_, ?_, ?_⟩
    · rw [Matrix.trace_fin_three]
      simp [rodrigues, skewOf]
      linear_combination -2 * (1 - Real.cos a) * hone
    · simp [rodrigues, skewOf]
      ring
    · simp [rodrigues, skewOf]
      ring
    · simp [rodrigues, skewOf]
      ring

/-- Rotation vectors shorter than a half turn are determined by the rotation. -/
theorem expRotation_injective {u v : Fin 3 → ℝ} (hu : Real.sqrt (∑ i, u i ^ 2) < Real.pi) (hv : Real.sqrt (∑ i, v i ^ 2) ≤ Real.pi)
    (h : expRotation u = expRotation v) : u = v := by
  obtain ⟨s, hs, ht, h0, h1, h2⟩ := expRotation_entries u
  obtain ⟨s', hs', ht', h0', h1', h2'⟩ := expRotation_entries v
  rw [h] at ht h0 h1 h2
  have hlen : Real.sqrt (∑ i, u i ^ 2) = Real.sqrt (∑ i, v i ^ 2) :=
    Real.injOn_cos ⟨Real.sqrt_nonneg _, hu.le⟩ ⟨Real.sqrt_nonneg _, hv⟩ (by linarith)
  rw [← hlen, ← hs] at hs'
  have hne : s ≠ 0 := by
    rw [hs]
    split
    · exact one_ne_zero
    · rename_i hz
      exact div_ne_zero (Real.sin_pos_of_pos_of_lt_pi (lt_of_le_of_ne (Real.sqrt_nonneg _) (Ne.symm hz)) hu).ne' hz
  rw [hs'] at h0' h1' h2'
  have hk : (2 * s) ≠ 0 := mul_ne_zero two_ne_zero hne
  funext i
  fin_cases i
  · exact mul_left_cancel₀ hk (h0.symm.trans h0')
  · exact mul_left_cancel₀ hk (h1.symm.trans h1')
  · exact mul_left_cancel₀ hk (h2.symm.trans h2')
/-- Rotations by a half turn. -/
theorem expRotation_half_entries {u : Fin 3 → ℝ} (hu : Real.sqrt (∑ i, u i ^ 2) = Real.pi) (i j : Fin 3) :
    expRotation u i j = 2 * (u i * u j) / Real.pi ^ 2 - if i = j then 1 else 0 := by
  have hp := Real.pi_ne_zero
  have hsq : Real.pi ^ 2 = u 0 ^ 2 + u 1 ^ 2 + u 2 ^ 2 := by
    rw [← hu, Real.sq_sqrt (Finset.sum_nonneg fun i _ => sq_nonneg _), Fin.sum_univ_three]
  have : expRotation u = rodrigues Real.pi (fun i => u i / Real.pi) := by
    unfold expRotation
    rw [hu]
    exact if_neg hp
  rw [this]
  fin_cases i <;> fin_cases j <;> simp [rodrigues, skewOf] <;> field_simp <;> linarith

/-- The rotation vectors of a rotation by a half turn are opposite. -/
theorem expRotation_half {u v : Fin 3 → ℝ} (hu : Real.sqrt (∑ i, u i ^ 2) = Real.pi) (hv : Real.sqrt (∑ i, v i ^ 2) ≤ Real.pi)
    (h : expRotation u = expRotation v) : v = u ∨ v = -u := by
  obtain ⟨s, -, ht, -⟩ := expRotation_entries u
  obtain ⟨s', -, ht', -⟩ := expRotation_entries v
  rw [h] at ht
  have hlen : Real.sqrt (∑ i, v i ^ 2) = Real.pi := by
    rw [← hu]
    exact (Real.injOn_cos ⟨Real.sqrt_nonneg _, hv⟩ ⟨Real.sqrt_nonneg _, hu.le⟩ (by linarith))
  have hprod : ∀ i j, u i * u j = v i * v j := fun i j => by
    have h1 := expRotation_half_entries hu i j
    have h2 := expRotation_half_entries hlen i j
    rw [h, h2] at h1
    have hp : (Real.pi ^ 2) ≠ 0 := pow_ne_zero 2 Real.pi_ne_zero
    have : 2 * (v i * v j) / Real.pi ^ 2 = 2 * (u i * u j) / Real.pi ^ 2 := by linarith
    rw [div_left_inj' hp] at this
    linarith
  obtain ⟨i, hi⟩ : ∃ i, u i ≠ 0 := by
    by_contra hall
    push Not at hall
    have : Real.sqrt (∑ i, u i ^ 2) = 0 := by simp [hall]
    rw [hu] at this
    exact Real.pi_ne_zero this
  have hs : (v i - u i) * (v i + u i) = 0 := by linarith [hprod i i]
  rcases mul_eq_zero.1 hs with h' | h'
  · left
    funext j
    have := hprod i j
    rw [sub_eq_zero.1 h'] at this
    exact (mul_left_cancel₀ hi this).symm
  · right
    funext j
    have := hprod i j
    rw [eq_neg_of_add_eq_zero_left h'] at this
    exact mul_left_cancel₀ hi (by rw [Pi.neg_apply]; linarith)

namespace EigenExt

/-- Rotation vectors computed from matrices are no longer than a half turn. -/
theorem rotVecOfMatrix_length {R : Matrix (Fin 3) (Fin 3) ℝ} (h : Quat.Rotation R) :
    Real.sqrt (∑ i, rotVecOfMatrix R i ^ 2) ≤ Real.pi := by
  have hb := (Quat.ofMatrix_unit h).angle_bounds
  have : ∑ i, rotVecOfMatrix R i ^ 2 = (Quat.ofMatrix R).angle ^ 2 := by
    unfold rotVecOfMatrix Quat.rotVec
    simp only [mul_pow, ← Finset.sum_mul]
    rw [Quat.axis_sq, one_mul]
  rw [this, Real.sqrt_sq hb.1]
  exact hb.2

end EigenExt

end Serpent
