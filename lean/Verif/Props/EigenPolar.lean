import Verif.Lemmas.Quaternion
import Verif.Spec.Geometry
import Mathlib.Analysis.SpecialFunctions.Trigonometric.Inverse
import Mathlib.Algebra.BigOperators.Field

/-!
# C44, C80, C81: polar coordinates, normalisation and rotation vectors
-/

namespace Serpent

namespace EigenExt

open Matrix

/-! ### C44 -/

/-- C44 (what holds). The call throws exactly for the points of the z axis; otherwise the range is the Euclidean norm and the
elevation is the angle from the z axis, so that height and distance from the axis can be reconstructed. -/
theorem C44_range_elevation_partial (x y z : ℝ) :
    (cartesianToPolar x y z = .throws ↔ x = 0 ∧ y = 0) ∧ cartesianToPolar x y z ≠ .ub ∧
    ∀ r a e, cartesianToPolar x y z = .ok (r, a, e) →
      r = Real.sqrt (x ^ 2 + y ^ 2 + z ^ 2) ∧
      ∃ e', e = some e' ∧ 0 ≤ e' ∧ e' ≤ Real.pi ∧ r * Real.cos e' = z ∧ r * Real.sin e' = Real.sqrt (x ^ 2 + y ^ 2) := by
  have hz : x * x + y * y = 0 ↔ x = 0 ∧ y = 0 := mul_self_add_mul_self_eq_zero
  unfold cartesianToPolar
  by_cases h : x * x + y * y = 0
  · rw [if_pos h]
    exact ⟨⟨fun _ => hz.1 h, fun _ => rfl⟩, by simp, fun r a e c => (by cases c)⟩
  · rw [if_neg h]
    refine ⟨⟨fun c => (by cases c), fun c => absurd (hz.2 c) h⟩, by simp, ?_⟩
    rintro r a e c
    obtain ⟨rfl, c'⟩ := Prod.mk.inj (Outcome.ok.inj c)
    obtain ⟨rfl, rfl⟩ := Prod.mk.inj c'
    clear c c'
    have hpos : 0 < x * x + y * y := lt_of_le_of_ne (add_nonneg (mul_self_nonneg x) (mul_self_nonneg y)) (Ne.symm h)
    have e1 : x * x + y * y + z * z = x ^ 2 + y ^ 2 + z ^ 2 := by ring
    have e2 : x * x + y * y = x ^ 2 + y ^ 2 := by ring
    have hr : 0 < Real.sqrt (x * x + y * y + z * z) := Real.sqrt_pos.2 (by nlinarith [sq_nonneg z])
    have hsq : Real.sqrt (x * x + y * y + z * z) ^ 2 = x * x + y * y + z * z := Real.sq_sqrt (by nlinarith [sq_nonneg z])
    set r := Real.sqrt (x * x + y * y + z * z) with hrdef
    have hle : |z| ≤ r := abs_le_of_sq_le_sq (by nlinarith) hr.le
    have h1 : -1 ≤ z / r := by rw [le_div_iff₀ hr]; linarith [neg_abs_le z]
    have h2 : z / r ≤ 1 := by rw [div_le_iff₀ hr]; linarith [le_abs_self z]
    refine ⟨by rw [hrdef, e1], Real.arccos (z / r), by unfold stdAcos; rw [if_pos ⟨h1, h2⟩], Real.arccos_nonneg _,
      Real.arccos_le_pi _, ?_, ?_⟩
    · rw [Real.cos_arccos h1 h2]
      field_simp
    · have h3 : 1 - (z / r) ^ 2 = (x * x + y * y) / r ^ 2 := by
        field_simp
        linarith
      rw [Real.sin_arccos, ← e2, h3, Real.sqrt_div hpos.le, Real.sqrt_sq hr.le]
      field_simp

/-- C44 (exactly when it holds). The point can be reconstructed from the three numbers only if it lies on the plane `x = 0` or
on the cylinder of radius one around the z axis. -/
theorem C44_reconstruct_partial (x y z : ℝ) (h : ¬ (x = 0 ∧ y = 0)) :
    (∃ r a e, cartesianToPolar x y z = .ok (r, some a, some e) ∧ ofPolar r a e = ![x, y, z]) ↔
      x = 0 ∨ x ^ 2 + y ^ 2 = 1 := by
  obtain ⟨_, hub, hok⟩ := C44_range_elevation_partial x y z
  have hthrow := (C44_range_elevation_partial x y z).1
  have hz : x * x + y * y ≠ 0 := fun c => h (mul_self_add_mul_self_eq_zero.1 c)
  have hpos : 0 < x * x + y * y := lt_of_le_of_ne (add_nonneg (mul_self_nonneg x) (mul_self_nonneg y)) (Ne.symm hz)
  have e2 : x * x + y * y = x ^ 2 + y ^ 2 := by ring
  have hs : 0 < Real.sqrt (x ^ 2 + y ^ 2) := Real.sqrt_pos.2 (e2 ▸ hpos)
  have hss : Real.sqrt (x ^ 2 + y ^ 2) ^ 2 = x ^ 2 + y ^ 2 := Real.sq_sqrt (by positivity)
  constructor
  · rintro ⟨r, a, e, hc, hp⟩
    obtain ⟨_, e', he, _, _, hcos, hsin⟩ := hok _ _ _ hc
    obtain rfl := Option.some.inj he
    have hx : r * Real.sin e * Real.cos a = x := by simpa [ofPolar] using congrFun hp 0
    rw [hsin] at hx
    have hcosa : Real.cos a = x / (x * x + y * y) := by
      unfold cartesianToPolar at hc
      rw [if_neg hz] at hc
      have ha := (Prod.mk.inj (Prod.mk.inj (Outcome.ok.inj hc)).2).1
      unfold stdAcos at ha
      by_cases hr : -1 ≤ x / (x * x + y * y) ∧ x / (x * x + y * y) ≤ 1
      · rw [if_pos hr] at ha
        by_cases hy : y ≥ 0
        · rw [if_pos hy] at ha
          rw [← Option.some.inj ha, Real.cos_arccos hr.1 hr.2]
        · rw [if_neg hy] at ha
          rw [← Option.some.inj ha, Real.cos_two_pi_sub, Real.cos_arccos hr.1 hr.2]
      · rw [if_neg hr] at ha
        split at ha <;> simp at ha
    rw [hcosa, e2] at hx
    by_cases hx0 : x = 0
    · exact .inl hx0
    · right
      have h3 : Real.sqrt (x ^ 2 + y ^ 2) = x ^ 2 + y ^ 2 := by
        have h4 : Real.sqrt (x ^ 2 + y ^ 2) * x = x * (x ^ 2 + y ^ 2) := by
          field_simp at hx
          rw [hx, mul_comm]
        have h5 : x * Real.sqrt (x ^ 2 + y ^ 2) = x * (x ^ 2 + y ^ 2) := by linarith
        exact mul_left_cancel₀ hx0 h5
      rw [h3] at hss
      have hne : x ^ 2 + y ^ 2 ≠ 0 := e2 ▸ hz
      have : (x ^ 2 + y ^ 2) * (x ^ 2 + y ^ 2) = (x ^ 2 + y ^ 2) * 1 := by rw [mul_one, ← sq, hss]
      exact mul_left_cancel₀ hne this
  · intro hcase
    have hr : -1 ≤ x / (x * x + y * y) ∧ x / (x * x + y * y) ≤ 1 := by
      rcases hcase with rfl | hcase
      · simp
      · rw [e2, hcase, div_one]
        exact abs_le.1 (abs_le_of_sq_le_sq (by nlinarith [sq_nonneg y]) zero_le_one)
    obtain ⟨c, hc⟩ : ∃ c, cartesianToPolar x y z = .ok c := by
      cases hc : cartesianToPolar x y z with
      | ok c => exact ⟨c, rfl⟩
      | throws => exact absurd (hthrow.1 hc) h
      | ub => exact absurd hc hub
    obtain ⟨r, a, e⟩ := c
    obtain ⟨_, e', rfl, _, _, hcos, hsin⟩ := hok _ _ _ hc
    have hsina : Real.sin (Real.arccos (x / (x * x + y * y))) = |y| / Real.sqrt (x ^ 2 + y ^ 2) := by
      rw [Real.sin_arccos]
      rcases hcase with rfl | hcase
      · have : Real.sqrt (0 ^ 2 + y ^ 2) = |y| := by rw [zero_pow two_ne_zero, zero_add, Real.sqrt_sq_eq_abs]
        have hy : y ≠ 0 := fun c => h ⟨rfl, c⟩
        rw [this, div_self (abs_ne_zero.2 hy)]
        simp
      · rw [e2, hcase, div_one, Real.sqrt_one, div_one]
        rw [← Real.sqrt_sq_eq_abs]
        congr 1
        linarith
    have hcx : Real.sqrt (x ^ 2 + y ^ 2) * (x / (x * x + y * y)) = x := by
      rcases hcase with rfl | hcase
      · simp
      · rw [e2, hcase]
        simp
    unfold cartesianToPolar at hc
    rw [if_neg hz] at hc
    obtain ⟨rfl, hc2⟩ := Prod.mk.inj (Outcome.ok.inj hc)
    obtain ⟨ha, he⟩ := Prod.mk.inj hc2
    unfold stdAcos at ha
    rw [if_pos hr] at ha
    by_cases hy : y ≥ 0
    · rw [if_pos hy] at ha
      refine ⟨_, Real.arccos (x / (x * x + y * y)), e', by
        unfold cartesianToPolar; rw [if_neg hz]; dsimp only; rw [he, if_pos hy, stdAcos, if_pos hr], ?_⟩
      unfold ofPolar
      rw [hsin, hcos, Real.cos_arccos hr.1 hr.2, hcx, hsina, abs_of_nonneg hy]
      congr 2
      field_simp
    · rw [if_neg hy] at ha
      refine ⟨_, 2 * Real.pi - Real.arccos (x / (x * x + y * y)), e', by
        unfold cartesianToPolar; rw [if_neg hz]; dsimp only; rw [he, if_neg hy, stdAcos, if_pos hr]; rfl, ?_⟩
      unfold ofPolar
      rw [hsin, hcos, Real.cos_two_pi_sub, Real.cos_arccos hr.1 hr.2, hcx, Real.sin_two_pi_sub, hsina,
        abs_of_neg (not_le.1 hy)]
      congr 2
      field_simp

/-- C44 fails: the point (2, 0, 0) gets an azimuth of 60 degrees, so a different point is reconstructed. -/
theorem C44_fails_wrong_azimuth :
    ∃ r a e, cartesianToPolar 2 0 0 = .ok (r, some a, some e) ∧ Real.cos a = 1 / 2 ∧ ofPolar r a e ≠ ![2, 0, 0] := by
  refine ⟨2, Real.arccos (1 / 2), Real.pi / 2, ?_, Real.cos_arccos (by norm_num) (by norm_num), fun c => ?_⟩
  · unfold cartesianToPolar stdAcos
    have : Real.sqrt 4 = 2 := by rw [show (4 : ℝ) = 2 * 2 by norm_num]; exact Real.sqrt_mul_self zero_le_two
    norm_num [this]
  · have := congrFun c 0
    simp [ofPolar] at this
    rw [Real.cos_arccos (by norm_num) (by norm_num)] at this
    norm_num at this

/-- C44 fails: the azimuth of (1/2, 0, 0) is NaN. -/
theorem C44_fails_nan : ∃ r e, cartesianToPolar (1 / 2) 0 0 = .ok (r, none, e) := by
  refine ⟨Real.sqrt (1 / 2 * (1 / 2) + 0 * 0 + 0 * 0), stdAcos (0 / Real.sqrt (1 / 2 * (1 / 2) + 0 * 0 + 0 * 0)), ?_⟩
  unfold cartesianToPolar
  rw [if_neg (by norm_num)]
  dsimp only
  rw [if_pos le_rfl, show stdAcos (1 / 2 / (1 / 2 * (1 / 2) + 0 * 0)) = none by
    unfold stdAcos; rw [if_neg (by norm_num)]]

/-- C44 fails: points of the z axis other than the origin are refused. -/
theorem C44_fails_axis : cartesianToPolar 0 0 1 = .throws :=
  (C44_range_elevation_partial 0 0 1).1.2 ⟨rfl, rfl⟩

example : ¬ ((3 / 5 : ℝ) = 0 ∧ (4 / 5 : ℝ) = 0) ∧ (3 / 5 : ℝ) ^ 2 + (4 / 5) ^ 2 = 1 := by norm_num

/-! ### C80 -/

/-- C80. Normalisation throws exactly for the zero vector; otherwise it returns the only vector of length one that is a positive
multiple of the argument. -/
theorem C80_normalise {n : Nat} (v : Fin n → ℝ) :
    (safeNormalise v = .throws ↔ v = 0) ∧ safeNormalise v ≠ .ub ∧
    ∀ u, safeNormalise v = .ok u ↔ v ≠ 0 ∧ ∑ i, u i ^ 2 = 1 ∧ ∃ c > 0, ∀ i, v i = c * u i := by
  have hnn : 0 ≤ ∑ i, v i ^ 2 := Finset.sum_nonneg fun i _ => sq_nonneg _
  have hz : Real.sqrt (∑ i, v i ^ 2) = 0 ↔ v = 0 := by
    rw [Real.sqrt_eq_zero hnn, Finset.sum_eq_zero_iff_of_nonneg fun i _ => sq_nonneg _]
    constructor
    · intro h
      funext i
      simpa using h i (Finset.mem_univ i)
    · rintro rfl i _
      simp
  unfold safeNormalise
  by_cases h : Real.sqrt (∑ i, v i ^ 2) = 0
  · rw [if_pos h]
    have hv := hz.1 h
    exact ⟨⟨fun _ => hv, fun _ => rfl⟩, by simp, fun u => ⟨fun c => (by cases c), fun c => absurd hv c.1⟩⟩
  · rw [if_neg h]
    have hv : v ≠ 0 := fun c => h (hz.2 c)
    have hpos : 0 < Real.sqrt (∑ i, v i ^ 2) := lt_of_le_of_ne (Real.sqrt_nonneg _) (Ne.symm h)
    refine ⟨⟨fun c => (by cases c), fun c => absurd c hv⟩, by simp, fun u => ⟨fun c => ?_, fun ⟨_, h1, c, hc, he⟩ => ?_⟩⟩
    · obtain rfl := Outcome.ok.inj c
      refine ⟨hv, ?_, _, hpos, fun i => ?_⟩
      · simp only [div_pow]
        rw [← Finset.sum_div, Real.sq_sqrt hnn, div_self]
        intro c
        rw [c, Real.sqrt_zero] at h
        exact h rfl
      · field_simp
    · have hn : Real.sqrt (∑ i, v i ^ 2) = c := by
        have : ∑ i, v i ^ 2 = c ^ 2 := by
          simp only [he, mul_pow]
          rw [← Finset.mul_sum, h1, mul_one]
        rw [this, Real.sqrt_sq hc.le]
      refine congrArg _ ?_
      funext i
      rw [hn, he i]
      field_simp

example : (![3, 4] : Fin 2 → ℝ) ≠ 0 := fun h => by have := congrFun h 0; norm_num at this

/-! ### C81 -/

/-- C81. The rotation of the components built from a rotation vector is the rotation about its direction by its length, and the
other components are what their names say. -/
theorem C81_components_partial (r t : Fin 3 → ℝ) (hr : r ≠ 0) :
    ∃ c, componentsOf r t = some c ∧ c.R = expRotation r ∧ c.r = r ∧ c.t = t ∧
      0 < c.a ∧ c.a ^ 2 = ∑ i, r i ^ 2 ∧ c.sina = Real.sin c.a ∧ c.cosa = Real.cos c.a := by
  have hnn : 0 ≤ ∑ i, r i ^ 2 := Finset.sum_nonneg fun i _ => sq_nonneg _
  have h : Real.sqrt (∑ i, r i ^ 2) ≠ 0 := by
    rw [ne_eq, Real.sqrt_eq_zero hnn, Finset.sum_eq_zero_iff_of_nonneg fun i _ => sq_nonneg _]
    intro c
    apply hr
    funext i
    simpa using c i (Finset.mem_univ i)
  refine ⟨_, if_neg h, ?_, rfl, rfl, lt_of_le_of_ne (Real.sqrt_nonneg _) (Ne.symm h), Real.sq_sqrt hnn, rfl, rfl⟩
  have hu : ∑ i, (r i / Real.sqrt (∑ i, r i ^ 2)) ^ 2 = 1 := by
    simp only [div_pow]
    rw [← Finset.sum_div, Real.sq_sqrt hnn, div_self]
    intro c
    rw [c, Real.sqrt_zero] at h
    exact h rfl
  unfold expRotation
  rw [if_neg h]
  generalize hu' : (fun i => r i / Real.sqrt (∑ i, r i ^ 2)) = u
  replace hu : u 0 ^ 2 + u 1 ^ 2 + u 2 ^ 2 = 1 := by
    rw [← Fin.sum_univ_three (fun i => u i ^ 2), ← hu']
    exact hu
  dsimp only
  generalize Real.sqrt (∑ i, r i ^ 2) = a
  unfold angleAxisMatrix rodrigues skewOf
  ext i j
  fin_cases i <;> fin_cases j <;> simp
  · linear_combination (1 - Real.cos a) * hu
  · ring
  · ring
  · ring
  · linear_combination (1 - Real.cos a) * hu
  · ring
  · ring
  · ring
  · linear_combination (1 - Real.cos a) * hu

/-- C81. The matrix is a rotation: orthogonal with determinant one, and it leaves its axis where it is. -/
theorem C81_rotation (r t : Fin 3 → ℝ) (c : Components) (h : componentsOf r t = some c) :
    c.Rᵀ * c.R = 1 ∧ c.R.det = 1 ∧ c.R *ᵥ r = r := by
  unfold componentsOf at h
  by_cases h0 : Real.sqrt (∑ i, r i ^ 2) = 0
  · rw [if_pos h0] at h
    cases h
  rw [if_neg h0] at h
  obtain rfl := Option.some.inj h
  have hnn : 0 ≤ ∑ i, r i ^ 2 := Finset.sum_nonneg fun i _ => sq_nonneg _
  have hu : ∑ i, (r i / Real.sqrt (∑ i, r i ^ 2)) ^ 2 = 1 := by
    simp only [div_pow]
    rw [← Finset.sum_div, Real.sq_sqrt hnn, div_self]
    intro c
    rw [c, Real.sqrt_zero] at h0
    exact h0 rfl
  have hr : r = Real.sqrt (∑ i, r i ^ 2) • fun i => r i / Real.sqrt (∑ i, r i ^ 2) := by
    funext i
    simp only [Pi.smul_apply, smul_eq_mul]
    field_simp
  dsimp only
  generalize hu' : (fun i => r i / Real.sqrt (∑ i, r i ^ 2)) = u at hr
  replace hu : u 0 ^ 2 + u 1 ^ 2 + u 2 ^ 2 = 1 := by
    rw [← Fin.sum_univ_three (fun i => u i ^ 2), ← hu']
    exact hu
  have hsc := Real.sin_sq_add_cos_sq (Real.sqrt (∑ i, r i ^ 2))
  have main : ∀ a : ℝ, Real.sin a ^ 2 + Real.cos a ^ 2 = 1 →
      (angleAxisMatrix a u)ᵀ * angleAxisMatrix a u = 1 ∧ (angleAxisMatrix a u).det = 1 ∧ angleAxisMatrix a u *ᵥ u = u := by
    intro a hsc
    refine ⟨?_, ?_, ?_⟩
    · ext i j
      fin_cases i <;> fin_cases j <;> simp [angleAxisMatrix, Matrix.mul_apply, Fin.sum_univ_three]
      · linear_combination (1 - u 0 * u 0) * hsc + (Real.sin a ^ 2 + (1 - Real.cos a) ^ 2 * u 0 * u 0) * hu
      · linear_combination (0 - u 0 * u 1) * hsc + ((1 - Real.cos a) ^ 2 * u 0 * u 1) * hu
      · linear_combination (0 - u 0 * u 2) * hsc + ((1 - Real.cos a) ^ 2 * u 0 * u 2) * hu
      · linear_combination (0 - u 1 * u 0) * hsc + ((1 - Real.cos a) ^ 2 * u 1 * u 0) * hu
      · linear_combination (1 - u 1 * u 1) * hsc + (Real.sin a ^ 2 + (1 - Real.cos a) ^ 2 * u 1 * u 1) * hu
      · linear_combination (0 - u 1 * u 2) * hsc + ((1 - Real.cos a) ^ 2 * u 1 * u 2) * hu
      · linear_combination (0 - u 2 * u 0) * hsc + ((1 - Real.cos a) ^ 2 * u 2 * u 0) * hu
      · linear_combination (0 - u 2 * u 1) * hsc + ((1 - Real.cos a) ^ 2 * u 2 * u 1) * hu
      · linear_combination (1 - u 2 * u 2) * hsc + (Real.sin a ^ 2 + (1 - Real.cos a) ^ 2 * u 2 * u 2) * hu
    · rw [det_fin_three]
      simp [angleAxisMatrix]
      linear_combination hsc + (Real.sin a ^ 2 + (1 - Real.cos a) *
        (Real.cos a ^ 2 + Real.sin a ^ 2 * (u 0 ^ 2 + u 1 ^ 2 + u 2 ^ 2))) * hu
    · funext i
      fin_cases i <;> simp [angleAxisMatrix, mulVec, dotProduct, Fin.sum_univ_three]
      · linear_combination (1 - Real.cos a) * u 0 * hu
      · linear_combination (1 - Real.cos a) * u 1 * hu
      · linear_combination (1 - Real.cos a) * u 2 * hu
  obtain ⟨m1, m2, m3⟩ := main _ hsc
  refine ⟨m1, m2, ?_⟩
  calc angleAxisMatrix (Real.sqrt (∑ i, r i ^ 2)) u *ᵥ r
      = angleAxisMatrix (Real.sqrt (∑ i, r i ^ 2)) u *ᵥ (Real.sqrt (∑ i, r i ^ 2) • u) := by rw [← hr]
    _ = Real.sqrt (∑ i, r i ^ 2) • u := by rw [mulVec_smul, m3]
    _ = r := hr.symm

/-- C81. The components of a rigid transform: its rotation and translation, the rotation vector with this rotation, and its
length, which is an angle from 0 to 180 degrees. -/
theorem C81_from_transform {T : Iso ℝ} (hT : Rigid T) :
    (componentsOfTransform T).R = T.R ∧ (componentsOfTransform T).t = T.t ∧
    expRotation (componentsOfTransform T).r = T.R ∧
    0 ≤ (componentsOfTransform T).a ∧ (componentsOfTransform T).a ≤ Real.pi ∧
    (componentsOfTransform T).a ^ 2 = ∑ i, (componentsOfTransform T).r i ^ 2 ∧
    (componentsOfTransform T).sina = Real.sin (componentsOfTransform T).a ∧
    (componentsOfTransform T).cosa = Real.cos (componentsOfTransform T).a := by
  have hr : Quat.Rotation T.R := ⟨hT.orthogonal, hT.det⟩
  have hu := Quat.ofMatrix_unit hr
  refine ⟨rfl, rfl, rotVecOfMatrix_spec hr, hu.angle_bounds.1, hu.angle_bounds.2, ?_, rfl, rfl⟩
  unfold componentsOfTransform
  simp only [mul_pow]
  rw [← Finset.sum_mul, Quat.axis_sq, one_mul]

/-- C81 fails for the zero rotation: the matrix is not a number. -/
theorem C81_fails_zero (t : Fin 3 → ℝ) : componentsOf 0 t = none := by
  unfold componentsOf
  simp

example : (![0, 0, 1] : Fin 3 → ℝ) ≠ 0 := fun h => by have := congrFun h 2; simp at this

end EigenExt

end Serpent
