import Verif.Props.EigenCovariance
import Verif.Props.EigenRates
import Verif.Props.EigenValidity

/-!
# The unit tests of `eigen_ext`, replayed on the model

Nothing here is a claim about all inputs: these are the examples in eigen_ext/test, with the values that the tests of the
repository expect. They check that the model computes what the code computes. Where a test uses arbitrary data, the test is
stated for all data.
-/

namespace Serpent

namespace Conformance

open Matrix EigenExt

/-! ### covariance.cpp -/

/-- covariance.cpp:6-17. -/
example : reorderCovariance !![(1 : ℚ), 4, 5; 4, 2, 6; 5, 6, 3] 1 = .ok !![2, 6, 4; 6, 3, 5; 4, 5, 1] := by
  rw [reorder_eq _ (by norm_num) (by norm_num)]
  refine congrArg _ ?_
  funext i j
  fin_cases i <;> fin_cases j <;> rfl

/-- The matrix of covariance.cpp:21-26 (in thousandths). -/
def cov6 : Matrix (Fin 6) (Fin 6) ℤ :=
  !![1, 2, 3, 4, 5, 6; 2, 7, 8, 9, 10, 11; 3, 8, 12, 13, 14, 15; 4, 9, 13, 16, 17, 18; 5, 10, 14, 17, 19, 20;
     6, 11, 15, 18, 20, 21]

/-- covariance.cpp:19-36. -/
example : reorderCovariance cov6 1 = .ok !![7, 8, 9, 10, 11, 2; 8, 12, 13, 14, 15, 3; 9, 13, 16, 17, 18, 4;
    10, 14, 17, 19, 20, 5; 11, 15, 18, 20, 21, 6; 2, 3, 4, 5, 6, 1] := by
  rw [reorder_eq _ (by norm_num) (by norm_num)]
  exact congrArg _ (by decide +kernel)

/-- covariance.cpp:38-55. -/
example : reorderCovariance cov6 2 = .ok !![12, 13, 14, 15, 3, 8; 13, 16, 17, 18, 4, 9; 14, 17, 19, 20, 5, 10;
    15, 18, 20, 21, 6, 11; 3, 4, 5, 6, 1, 2; 8, 9, 10, 11, 2, 7] := by
  rw [reorder_eq _ (by norm_num) (by norm_num)]
  exact congrArg _ (by decide +kernel)

/-- covariance.cpp:57-74. -/
example : reorderCovariance cov6 3 = .ok !![16, 17, 18, 4, 9, 13; 17, 19, 20, 5, 10, 14; 18, 20, 21, 6, 11, 15;
    4, 5, 6, 1, 2, 3; 9, 10, 11, 2, 7, 8; 13, 14, 15, 3, 8, 12] := by
  rw [reorder_eq _ (by norm_num) (by norm_num)]
  exact congrArg _ (by decide +kernel)

/-- covariance.cpp:76-93. -/
example : reorderCovariance cov6 4 = .ok !![19, 20, 5, 10, 14, 17; 20, 21, 6, 11, 15, 18; 5, 6, 1, 2, 3, 4;
    10, 11, 2, 7, 8, 9; 14, 15, 3, 8, 12, 13; 17, 18, 4, 9, 13, 16] := by
  rw [reorder_eq _ (by norm_num) (by norm_num)]
  exact congrArg _ (by decide +kernel)

/-- covariance.cpp:95-112. -/
example : reorderCovariance cov6 5 = .ok !![21, 6, 11, 15, 18, 20; 6, 1, 2, 3, 4, 5; 11, 2, 7, 8, 9, 10;
    15, 3, 8, 12, 13, 14; 18, 4, 9, 13, 16, 17; 20, 5, 10, 14, 17, 19] := by
  rw [reorder_eq _ (by norm_num) (by norm_num)]
  exact congrArg _ (by decide +kernel)

/-- A symmetric matrix whose diagonal dominates is positive definite. -/
theorem posDef_of_dominant {n : Nat} {A : Matrix (Fin n) (Fin n) ℝ} (hs : A.IsSymm)
    (h : ∀ i, ∑ j ∈ Finset.univ.erase i, |A i j| < A i i) : A.PosDef := by
  refine Matrix.PosDef.of_dotProduct_mulVec_pos ((conjTranspose_eq_transpose_of_trivial A).trans hs) fun x hx => ?_
  have hquad : star x ⬝ᵥ (A *ᵥ x) = ∑ i, ∑ j, A i j * (x i * x j) := by
    simp only [star_trivial, dotProduct, mulVec, Finset.mul_sum]
    exact Finset.sum_congr rfl fun i _ => Finset.sum_congr rfl fun j _ => by ring
  rw [hquad]
  have hlow : ∀ i j, -(|A i j| * ((x i ^ 2 + x j ^ 2) / 2)) ≤ A i j * (x i * x j) := fun i j => by
    have h1 : |A i j * (x i * x j)| ≤ |A i j| * ((x i ^ 2 + x j ^ 2) / 2) := by
      rw [abs_mul]
      refine mul_le_mul_of_nonneg_left ?_ (abs_nonneg _)
      rw [abs_le]
      constructor <;> nlinarith [sq_nonneg (x i + x j), sq_nonneg (x i - x j)]
    exact (abs_le.1 h1).1
  have hrow : ∀ i, A i i * x i ^ 2 - ∑ j ∈ Finset.univ.erase i, |A i j| * ((x i ^ 2 + x j ^ 2) / 2) ≤
      ∑ j, A i j * (x i * x j) := fun i => by
    rw [← Finset.add_sum_erase _ _ (Finset.mem_univ i), sub_eq_add_neg, ← Finset.sum_neg_distrib]
    exact add_le_add (le_of_eq (by ring)) (Finset.sum_le_sum fun j _ => hlow i j)
  refine lt_of_lt_of_le ?_ (Finset.sum_le_sum fun i _ => hrow i)
  have hsym : ∑ i, ∑ j ∈ Finset.univ.erase i, |A i j| * ((x i ^ 2 + x j ^ 2) / 2) =
      ∑ i, ∑ j ∈ Finset.univ.erase i, |A i j| * x i ^ 2 := by
    have e : ∀ f : Fin n → Fin n → ℝ, ∑ i, ∑ j ∈ Finset.univ.erase i, f i j = ∑ i, ∑ j, if i = j then 0 else f i j := fun f =>
      Finset.sum_congr rfl fun i _ => by
        rw [← Finset.add_sum_erase _ _ (Finset.mem_univ i), if_pos rfl, zero_add]
        exact Finset.sum_congr rfl fun j hj => (if_neg (Finset.ne_of_mem_erase hj).symm).symm
    have hsw : ∑ i, ∑ j ∈ Finset.univ.erase i, |A i j| * x j ^ 2 = ∑ i, ∑ j ∈ Finset.univ.erase i, |A i j| * x i ^ 2 := by
      rw [e, e, Finset.sum_comm]
      refine Finset.sum_congr rfl fun i _ => Finset.sum_congr rfl fun j _ => ?_
      by_cases hij : i = j
      · simp [hij]
      · rw [if_neg (Ne.symm hij), if_neg hij, hs.apply i j]
    have : ∀ i j, |A i j| * ((x i ^ 2 + x j ^ 2) / 2) = |A i j| * x i ^ 2 / 2 + |A i j| * x j ^ 2 / 2 := fun i j => by ring
    simp only [this, Finset.sum_add_distrib, ← Finset.sum_div]
    rw [hsw]
    ring
  rw [Finset.sum_sub_distrib, hsym, ← Finset.sum_sub_distrib]
  obtain ⟨k, hk⟩ : ∃ k, x k ≠ 0 := Function.ne_iff.1 hx
  refine Finset.sum_pos' (fun i _ => ?_) ⟨k, Finset.mem_univ k, ?_⟩
  · rw [← Finset.sum_mul, ← sub_mul]
    exact mul_nonneg (sub_nonneg.2 (h i).le) (sq_nonneg _)
  · rw [← Finset.sum_mul, ← sub_mul]
    exact mul_pos (sub_pos.2 (h k)) (by positivity)

/-- covariance.cpp:114-122. -/
example : isValidCovariance !![(1 : ℝ), 0.4, 0.5; 0.4, 2, 0.6; 0.5, 0.6, 3] 1e-12 = .ok true := by
  have hs : (!![(1 : ℝ), 0.4, 0.5; 0.4, 2, 0.6; 0.5, 0.6, 3]).IsSymm := by ext i j; fin_cases i <;> fin_cases j <;> rfl
  refine (C42_symmetric_argument _ hs _ (by norm_num)).2 (posDef_of_dominant hs fun i => ?_)
  rw [Finset.sum_erase_eq_sub (Finset.mem_univ i), Fin.sum_univ_three]
  fin_cases i <;> simp <;> norm_num [abs_of_pos]

/-- covariance.cpp:124-132. -/
example : isValidCovariance !![(1 : ℝ), -0.4, -0.5; -0.4, 2, -0.6; -0.5, -0.6, 3] 1e-12 = .ok true := by
  have hs : (!![(1 : ℝ), -0.4, -0.5; -0.4, 2, -0.6; -0.5, -0.6, 3]).IsSymm := by ext i j; fin_cases i <;> fin_cases j <;> rfl
  refine (C42_symmetric_argument _ hs _ (by norm_num)).2 (posDef_of_dominant hs fun i => ?_)
  rw [Finset.sum_erase_eq_sub (Finset.mem_univ i), Fin.sum_univ_three]
  fin_cases i <;> simp <;> norm_num [abs_of_pos]

/-- covariance.cpp:134-145. -/
example : isValidCovariance !![(0.1 : ℝ), 0.002, 0.003, 0.004, 0.005, 0.006; 0.002, 0.7, 0.008, 0.009, 0.010, 0.011;
    0.003, 0.008, 1.2, 0.013, 0.014, 0.015; 0.004, 0.009, 0.013, 1.6, 0.017, 0.018; 0.005, 0.010, 0.014, 0.017, 1.9, 0.020;
    0.006, 0.011, 0.015, 0.018, 0.020, 2.1] 1e-12 = .ok true := by
  have hs : (!![(0.1 : ℝ), 0.002, 0.003, 0.004, 0.005, 0.006; 0.002, 0.7, 0.008, 0.009, 0.010, 0.011;
    0.003, 0.008, 1.2, 0.013, 0.014, 0.015; 0.004, 0.009, 0.013, 1.6, 0.017, 0.018; 0.005, 0.010, 0.014, 0.017, 1.9, 0.020;
    0.006, 0.011, 0.015, 0.018, 0.020, 2.1]).IsSymm := by ext i j; fin_cases i <;> fin_cases j <;> rfl
  refine (C42_symmetric_argument _ hs _ (by norm_num)).2 (posDef_of_dominant hs fun i => ?_)
  rw [Finset.sum_erase_eq_sub (Finset.mem_univ i), Fin.sum_univ_six]
  fin_cases i <;> simp <;> norm_num [abs_of_pos]

/-! ### matrix.cpp -/

/-- matrix.cpp:5-8, 17-20. -/
example : skewSymmetric (0 : Fin 3 → ℚ) = 0 ∧ fromSkewSymmetric (0 : Matrix (Fin 3) (Fin 3) ℚ) = .ok 0 := by
  refine ⟨?_, ?_⟩
  · ext i j; fin_cases i <;> fin_cases j <;> simp [skewSymmetric]
  · unfold fromSkewSymmetric
    rw [if_neg (by simp)]
    refine congrArg _ ?_
    funext i; fin_cases i <;> rfl

/-- matrix.cpp:10-15, 22-27. -/
example : skewSymmetric ![(1 : ℚ), 2, 3] = !![0, -3, 2; 3, 0, -1; -2, 1, 0] ∧
    fromSkewSymmetric !![(0 : ℚ), -3, 2; 3, 0, -1; -2, 1, 0] = .ok ![1, 2, 3] := by
  have h : skewSymmetric ![(1 : ℚ), 2, 3] = !![0, -3, 2; 3, 0, -1; -2, 1, 0] := by
    ext i j; fin_cases i <;> fin_cases j <;> rfl
  exact ⟨h, h ▸ C41_recover ![(1 : ℚ), 2, 3]⟩

/-- matrix.cpp:29-34. -/
example : linearInterpolate !![(0 : ℚ); 0; 0] !![-1; 2; 3.6] 0.5 = !![-0.5; 1; 1.8] := by
  ext i j; fin_cases i <;> fin_cases j <;> simp [linearInterpolate] <;> norm_num

/-- matrix.cpp:36-41. -/
example : linearInterpolate !![(1 : ℚ); 2; 3] !![2; 6; 18] 0.5 = !![1.5; 4; 10.5] := by
  ext i j; fin_cases i <;> fin_cases j <;> simp [linearInterpolate] <;> norm_num

/-- matrix.cpp:43-55. -/
example (a b : Matrix (Fin 3) (Fin 1) ℚ) : linearInterpolate a b 0 = a ∧ linearInterpolate a b 1 = b := by
  simp [linearInterpolate]

/-! ### geometry.cpp -/

/-- geometry.cpp:25-39 (`linear_rates_0`), for all unit axes and angles below half a turn. -/
example (axis v : Fin 3 → ℝ) (haxis : axis 0 ^ 2 + axis 1 ^ 2 + axis 2 ^ 2 = 1) (rate dt : ℝ) (hr : 0 < rate) (hdt : 0 < dt)
    (hpi : rate * dt < Real.pi) :
    linearRatesEigen 1 ⟨angleAxisMatrix (rate * dt) axis, dt • v⟩ dt = .ok (Sum.elim (rate • axis) v) := by
  have hlen : Real.sqrt (∑ i, (rate • axis) i ^ 2) = rate := by
    have : ∑ i, (rate • axis) i ^ 2 = rate ^ 2 := by
      rw [Fin.sum_univ_three]
      simp only [Pi.smul_apply, smul_eq_mul]
      linear_combination rate ^ 2 * haxis
    rw [this, Real.sqrt_sq hr.le]
  refine C43_recovers Rigid.one (rate • axis) v dt hdt (by rw [hlen, mul_comm]; exact hpi) _ ?_ ?_
  · rw [Iso.one_R, Matrix.one_mul, Trajectory.angleAxisMatrix_eq haxis]
    unfold expRotation
    rw [length_smul _ hdt, hlen, mul_comm dt rate]
    show _ = if rate * dt = 0 then _ else _
    rw [if_neg (mul_pos hr hdt).ne']
    funext i
    simp only [Pi.smul_apply, smul_eq_mul]
    field_simp
  · unfold Iso.apply
    rw [Iso.one_R, Matrix.one_mulVec]
    exact (add_zero _).symm

/-- geometry.cpp:41-55 (`linear_rates_1`: half a turn about an axis whose x component is the largest). -/
example (axis v : Fin 3 → ℝ) (haxis : axis 0 ^ 2 + axis 1 ^ 2 + axis 2 ^ 2 = 1) (hx : 0 < axis 0) (hy : axis 1 ^ 2 ≤ axis 0 ^ 2)
    (hz : axis 2 ^ 2 ≤ axis 0 ^ 2) (rate : ℝ) (hr : 0 < rate) :
    linearRatesEigen 1 ⟨angleAxisMatrix (rate * (Real.pi / rate)) axis, (Real.pi / rate) • v⟩ (Real.pi / rate) =
      .ok (Sum.elim (rate • axis) v) := by
  have hdt : 0 < Real.pi / rate := div_pos Real.pi_pos hr
  have hpi : rate * (Real.pi / rate) = Real.pi := mul_div_cancel₀ _ hr.ne'
  have hm : angleAxisMatrix Real.pi axis = !![2 * axis 0 * axis 0 - 1, 2 * axis 0 * axis 1, 2 * axis 0 * axis 2;
      2 * axis 0 * axis 1, 2 * axis 1 * axis 1 - 1, 2 * axis 1 * axis 2;
      2 * axis 0 * axis 2, 2 * axis 1 * axis 2, 2 * axis 2 * axis 2 - 1] := by
    unfold angleAxisMatrix
    rw [Real.sin_pi, Real.cos_pi]
    ext i j
    fin_cases i <;> fin_cases j <;> simp [-mul_eq_mul_left_iff, -mul_eq_mul_right_iff] <;> ring
  have hq : Quat.ofMatrix (angleAxisMatrix Real.pi axis) = ⟨0, axis 0, axis 1, axis 2⟩ := by
    rw [hm]
    unfold Quat.ofMatrix
    have h0 : ∀ a b c d e f g h k : ℝ, (!![a, b, c; d, e, f; g, h, k] : Matrix (Fin 3) (Fin 3) ℝ) 2 2 = k := fun _ _ _ _ _ _ _ _ _ => rfl
    simp only [Matrix.of_apply, Matrix.cons_val', Matrix.cons_val_zero, Matrix.cons_val_one, Matrix.cons_val]
    rw [if_neg (by nlinarith), if_neg (by nlinarith), if_neg (by nlinarith)]
    have hs : Real.sqrt (2 * axis 0 * axis 0 - 1 - (2 * axis 1 * axis 1 - 1) - (2 * axis 2 * axis 2 - 1) + 1) = 2 * axis 0 := by
      rw [show 2 * axis 0 * axis 0 - 1 - (2 * axis 1 * axis 1 - 1) - (2 * axis 2 * axis 2 - 1) + 1 = (2 * axis 0) ^ 2 by
        linear_combination (-2) * haxis]
      exact Real.sqrt_sq (by positivity)
    rw [hs]
    refine Quat.ext ?_ ?_ ?_ ?_
    · simp
    · simp
    · simp only; field_simp; ring
    · simp only; field_simp; ring
  have hn : Quat.vecNorm ⟨0, axis 0, axis 1, axis 2⟩ = 1 := by
    have h1 := @Quat.vecNorm_sq ⟨0, axis 0, axis 1, axis 2⟩
    have h2 := @Quat.vecNorm_nonneg ⟨0, axis 0, axis 1, axis 2⟩
    nlinarith
  have hrot : rotVecOfMatrix (angleAxisMatrix Real.pi axis) = Real.pi • axis := by
    unfold rotVecOfMatrix
    rw [hq]
    unfold Quat.rotVec Quat.axis Quat.angle
    rw [hn]
    have ha : Quat.atan2 1 |0| = Real.pi / 2 := by
      unfold Quat.atan2
      rw [abs_zero]
      exact Complex.arg_I
    simp only [ne_eq, one_ne_zero, not_false_eq_true, if_true, lt_irrefl, if_false, div_one, ha]
    funext i
    fin_cases i <;> simp <;> ring
  have hone : relativeTransform (1 : Iso ℝ) ⟨angleAxisMatrix (rate * (Real.pi / rate)) axis, (Real.pi / rate) • v⟩ =
      ⟨angleAxisMatrix (rate * (Real.pi / rate)) axis, (Real.pi / rate) • v⟩ := by
    unfold relativeTransform
    rw [Iso.ext_iff]
    constructor
    · change (1 : Matrix (Fin 3) (Fin 3) ℝ)ᵀ * _ = _
      simp
    · change (1 : Matrix (Fin 3) (Fin 3) ℝ)ᵀ *ᵥ _ + -((1 : Matrix (Fin 3) (Fin 3) ℝ)ᵀ *ᵥ (0 : Fin 3 → ℝ)) = _
      simp
  refine rates_eq (r := rate • axis) hdt ?_ (by rw [hone]) rfl
  rw [hone, hpi, hrot, smul_smul, mul_comm, hpi]

/-- geometry.cpp:57-69 (`linear_rates_2`), for all translations. -/
example (a b : Fin 3 → ℝ) (dt : ℝ) (hdt : 0 < dt) :
    linearRatesEigen ⟨1, a⟩ ⟨1, b⟩ dt = .ok (Sum.elim 0 (fun i => (b i - a i) / dt)) := by
  refine C43_recovers (A := ⟨1, a⟩) ⟨by simp, by simp⟩ 0 _ dt hdt (by simpa using Real.pi_pos) _ ?_ ?_
  · simp [expRotation]
  · unfold Iso.apply
    rw [Matrix.one_mulVec]
    funext i
    simp only [Pi.add_apply, Pi.smul_apply, smul_eq_mul]
    rw [mul_div_cancel₀ _ hdt.ne']
    ring

/-- geometry.cpp:71-86, for all poses. -/
example (T : Iso ℚ) : relativeTransform 1 T = T ∧ relativeTransform T 1 = T⁻¹ := by
  refine ⟨?_, ?_⟩
  · rw [Iso.ext_iff]
    constructor
    · change (1 : Matrix (Fin 3) (Fin 3) ℚ)ᵀ * _ = _
      simp
    · change (1 : Matrix (Fin 3) (Fin 3) ℚ)ᵀ *ᵥ _ + -((1 : Matrix (Fin 3) (Fin 3) ℚ)ᵀ *ᵥ (0 : Fin 3 → ℚ)) = _
      simp
  · rw [Iso.ext_iff]
    constructor
    · change _ * (1 : Matrix (Fin 3) (Fin 3) ℚ) = _
      simp
    · change _ *ᵥ (0 : Fin 3 → ℚ) + _ = _
      simp

/-- geometry.cpp:88-105, for all frames; and `transform_with_identity`, geometry.cpp:107-115, for all motions. -/
example (T X : Iso ℚ) (hX : Rigid X) : changeRelativeTransformFrame 1 X = 1 ∧ changeRelativeTransformFrame T 1 = T := by
  constructor
  · rw [Iso.ext_iff]
    constructor
    · change X.R * 1 * X.Rᵀ = 1
      rw [Matrix.mul_one, hX.orthogonal']
    · change (X.R * 1) *ᵥ (-(X.Rᵀ *ᵥ X.t)) + (X.R *ᵥ 0 + X.t) = 0
      rw [Matrix.mul_one, Matrix.mulVec_neg, Matrix.mulVec_mulVec, hX.orthogonal']
      simp
  · rw [Iso.ext_iff]
    constructor
    · change 1 * T.R * (1 : Matrix (Fin 3) (Fin 3) ℚ)ᵀ = T.R
      simp
    · change (1 * T.R) *ᵥ (-((1 : Matrix (Fin 3) (Fin 3) ℚ)ᵀ *ᵥ (0 : Fin 3 → ℚ))) + (1 *ᵥ T.t + (0 : Fin 3 → ℚ)) = T.t
      simp

/-- geometry.cpp:117-124, for all translations. -/
example (t x : Fin 3 → ℚ) : changeRelativeTransformFrame ⟨1, t⟩ ⟨1, x⟩ = ⟨1, t⟩ := by
  rw [Iso.ext_iff]
  constructor
  · change 1 * 1 * (1 : Matrix (Fin 3) (Fin 3) ℚ)ᵀ = 1
    simp
  · change (1 * 1) *ᵥ (-((1 : Matrix (Fin 3) (Fin 3) ℚ)ᵀ *ᵥ x)) + (1 *ᵥ t + x) = t
    simp

/-- geometry.cpp:126-133, for all rotations. -/
example (R X : Matrix (Fin 3) (Fin 3) ℝ) (hX : Rigid (⟨X, 0⟩ : Iso ℝ)) :
    rotationAngle (changeRelativeTransformFrame ⟨R, 0⟩ ⟨X, 0⟩).R = rotationAngle R := C40_angle hX ⟨R, 0⟩

/-- geometry.cpp:9-23, 135-152, for all transforms. -/
example (T : Iso ℚ) : (transformAdjoint T).toBlocks₁₁ = T.R ∧ (transformAdjoint T).toBlocks₁₂ = 0 ∧
    (transformAdjoint T).toBlocks₂₁ = skewSymmetric T.t * T.R ∧ (transformAdjoint T).toBlocks₂₂ = T.R := by
  simp [transformAdjoint]

/-- geometry.cpp:154-164 (`check_against_alternate_method`), for all transforms. -/
example (T X : Iso ℚ) (hT : Rigid T) (hX : Rigid X) : changeRelativeTransformFrame T X = (X * (X * T)⁻¹)⁻¹ := by
  rw [hX.mul_inv_rev (hX.mul hT).inv, (hX.mul hT).inv_inv]
  rfl

/-- geometry.cpp:166-173, for all covariances. -/
example (C : Mat6 ℚ) : changeCovarianceFrame C 1 = C := by
  have h : transformAdjoint (1 : Iso ℚ) = 1 := by
    unfold transformAdjoint
    have : skewSymmetric (1 : Iso ℚ).t = 0 := by
      ext i j; fin_cases i <;> fin_cases j <;> simp [skewSymmetric, Iso.one_t]
    rw [this, Iso.one_R, Matrix.zero_mul, fromBlocks_one]
  unfold changeCovarianceFrame changeCovarianceFrameAdj
  rw [h]
  simp

/-- geometry.cpp:175-180, for all covariances. -/
example (C : Matrix (Fin 3) (Fin 3) ℚ) : rotatePointCovariance C 1 = C := by
  simp [rotatePointCovariance]

/-- A variance along x after a rotation about z: geometry.cpp:182-217 are the angles of 90, 180, 270 and 45 degrees. -/
theorem yaw_x (var a : ℝ) : rotatePointCovariance !![var, 0, 0; 0, 0, 0; 0, 0, 0] (angleAxisMatrix a ![0, 0, 1]) =
    !![var * Real.cos a ^ 2, var * (Real.cos a * Real.sin a), 0; var * (Real.cos a * Real.sin a), var * Real.sin a ^ 2, 0;
      0, 0, 0] := by
  ext i j
  fin_cases i <;> fin_cases j <;> simp [rotatePointCovariance, angleAxisMatrix, Matrix.mul_apply, Fin.sum_univ_three] <;> ring

/-- geometry.cpp:182-189. -/
example : rotatePointCovariance !![(0.5 : ℝ), 0, 0; 0, 0, 0; 0, 0, 0] (angleAxisMatrix (Real.pi / 2) ![0, 0, 1]) =
    !![0, 0, 0; 0, 0.5, 0; 0, 0, 0] := by
  rw [yaw_x]; simp

/-- geometry.cpp:191-198. -/
example : rotatePointCovariance !![(0.5 : ℝ), 0, 0; 0, 0, 0; 0, 0, 0] (angleAxisMatrix Real.pi ![0, 0, 1]) =
    !![0.5, 0, 0; 0, 0, 0; 0, 0, 0] := by
  rw [yaw_x]; simp

/-- geometry.cpp:200-207. -/
example : rotatePointCovariance !![(0.5 : ℝ), 0, 0; 0, 0, 0; 0, 0, 0] (angleAxisMatrix (1.5 * Real.pi) ![0, 0, 1]) =
    !![0, 0, 0; 0, 0.5, 0; 0, 0, 0] := by
  have e : (1.5 : ℝ) * Real.pi = Real.pi / 2 + Real.pi := by ring
  rw [yaw_x, e, Real.cos_add_pi, Real.sin_add_pi]; simp

/-- geometry.cpp:209-217. -/
example (var : ℝ) : rotatePointCovariance !![var, 0, 0; 0, 0, 0; 0, 0, 0] (angleAxisMatrix (Real.pi / 4) ![0, 0, 1]) =
    var • Matrix.vecMulVec ![1 / Real.sqrt 2, 1 / Real.sqrt 2, 0] ![1 / Real.sqrt 2, 1 / Real.sqrt 2, 0] := by
  have h2 : Real.sqrt 2 ^ 2 = 2 := Real.sq_sqrt (by norm_num)
  have h : Real.sqrt 2 / 2 = 1 / Real.sqrt 2 := by
    rw [div_eq_div_iff (by norm_num) (by positivity)]
    linarith
  rw [yaw_x, Real.cos_pi_div_four, Real.sin_pi_div_four, h]
  ext i j
  generalize 1 / Real.sqrt 2 = c
  fin_cases i <;> fin_cases j <;> simp [-mul_eq_mul_left_iff, -mul_eq_mul_right_iff] <;> ring

end Conformance

end Serpent
