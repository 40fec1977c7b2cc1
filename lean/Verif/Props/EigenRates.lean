import Verif.Props.EigenGeometry
import Verif.Lemmas.RotationVector
import Verif.Lemmas.TrajectoryAlignment
import Verif.Spec.Gaussian
import Mathlib.LinearAlgebra.Matrix.NonsingularInverse
import Mathlib.Analysis.Real.Pi.Bounds

/-!
# C39, C40, C43: marginal covariance, invariance of the angle, recovery of constant rates
-/

namespace Serpent

namespace EigenExt

open Matrix

/-! ### C39 -/

/-- Symmetric matrices with the same quadratic form are equal. -/
theorem eq_of_quadratic {n : Type} [Fintype n] [DecidableEq n] {A B : Matrix n n ℝ} (hA : A.IsSymm) (hB : B.IsSymm)
    (h : ∀ x : n → ℝ, x ⬝ᵥ (A *ᵥ x) = x ⬝ᵥ (B *ᵥ x)) : A = B := by
  have hd : ∀ (M : Matrix n n ℝ) (i j : n), Pi.single i 1 ⬝ᵥ (M *ᵥ Pi.single j 1) = M i j := fun M i j => by simp
  ext i j
  have hi := h (Pi.single i 1)
  have hj := h (Pi.single j 1)
  have hij := h (Pi.single i 1 + Pi.single j 1)
  simp only [Matrix.mulVec_add, dotProduct_add, add_dotProduct, hd] at hi hj hij
  have a := hA.apply i j
  have b := hB.apply i j
  linarith

/-- The information matrix, written out. -/
theorem information_eq {P Q H : Mat6 ℝ} (hP : P.PosDef) (hQ : Q.PosDef) {L : Matrix ((Fin 3 ⊕ Fin 3) ⊕ (Fin 3 ⊕ Fin 3)) _ ℝ}
    (hL : IsInformation P Q H L) :
    L = fromBlocks (P⁻¹ + Hᵀ * Q⁻¹ * H) (-(Hᵀ * Q⁻¹)) (-(Q⁻¹ * H)) Q⁻¹ := by
  have sP : (P⁻¹)ᵀ = P⁻¹ := (conjTranspose_eq_transpose_of_trivial _).symm.trans hP.inv.isHermitian
  have sQ : (Q⁻¹)ᵀ = Q⁻¹ := (conjTranspose_eq_transpose_of_trivial _).symm.trans hQ.inv.isHermitian
  refine eq_of_quadratic hL.1 ?_ fun z => ?_
  · unfold Matrix.IsSymm
    rw [fromBlocks_transpose]
    simp only [transpose_add, transpose_neg, transpose_mul, transpose_transpose, sP, sQ, Matrix.mul_assoc]
  · have hz : z = Sum.elim (z ∘ Sum.inl) (z ∘ Sum.inr) := (Sum.elim_comp_inl_inr z).symm
    rw [hz, hL.2]
    generalize z ∘ Sum.inl = x
    generalize z ∘ Sum.inr = y
    have hsym : (H *ᵥ x) ⬝ᵥ (Q⁻¹ *ᵥ y) = y ⬝ᵥ (Q⁻¹ *ᵥ (H *ᵥ x)) := by
      rw [Matrix.dotProduct_mulVec, ← Matrix.mulVec_transpose, sQ, dotProduct_comm]
    have e : ∀ v : Fin 3 ⊕ Fin 3 → ℝ, x ⬝ᵥ (Hᵀ *ᵥ v) = (H *ᵥ x) ⬝ᵥ v := fun v => by
      rw [Matrix.dotProduct_mulVec, Matrix.vecMul_transpose]
    rw [fromBlocks_mulVec, sumElim_dotProduct_sumElim]
    simp only [Sum.elim_comp_inl, Sum.elim_comp_inr, Matrix.add_mulVec, Matrix.neg_mulVec, dotProduct_add, dotProduct_neg,
      Matrix.mulVec_sub, dotProduct_sub, sub_dotProduct, ← Matrix.mulVec_mulVec, e, hsym]
    ring

/-- C39. The composed covariance is what optimising the graph of both poses gives for the second pose: `x` is the error of the
first pose, with the given covariance; the error `y` of the second pose is the error of the first, seen from the second, plus
the independent error of the motion. The covariance of `y` is a block of the inverse of the information matrix. -/
theorem C39_marginal {P Q : Mat6 ℝ} (hP : P.PosDef) (hQ : Q.PosDef) (T : Iso ℝ)
    {L : Matrix ((Fin 3 ⊕ Fin 3) ⊕ (Fin 3 ⊕ Fin 3)) ((Fin 3 ⊕ Fin 3) ⊕ (Fin 3 ⊕ Fin 3)) ℝ}
    (hL : IsInformation P Q (transformAdjoint T⁻¹) L) :
    IsUnit L.det ∧ L⁻¹.toBlocks₂₂ = composeTransformCovariance P Q T 0 := by
  rw [information_eq hP hQ hL]
  clear hL
  have hH : composeTransformCovariance P Q T 0 = transformAdjoint T⁻¹ * P * (transformAdjoint T⁻¹)ᵀ + Q := by
    simp [composeTransformCovariance]
  rw [hH]
  clear hH
  generalize transformAdjoint T⁻¹ = H
  have hP' : P⁻¹ * P = 1 := Matrix.nonsing_inv_mul _ ((Matrix.isUnit_iff_isUnit_det _).1 hP.isUnit)
  have hQ' : Q⁻¹ * Q = 1 := Matrix.nonsing_inv_mul _ ((Matrix.isUnit_iff_isUnit_det _).1 hQ.isUnit)
  have hmul : (fromBlocks (P⁻¹ + Hᵀ * Q⁻¹ * H) (-(Hᵀ * Q⁻¹)) (-(Q⁻¹ * H)) Q⁻¹) *
      fromBlocks P (P * Hᵀ) (H * P) (H * P * Hᵀ + Q) = 1 := by
    rw [fromBlocks_multiply, ← fromBlocks_one]
    have e : ∀ M : Mat6 ℝ, P⁻¹ * (P * M) = M := fun M => by rw [← Matrix.mul_assoc, hP', Matrix.one_mul]
    congr 1 <;> simp only [Matrix.add_mul, Matrix.mul_add, Matrix.neg_mul, Matrix.mul_assoc, hP', hQ', e, Matrix.mul_one] <;>
      abel
  exact ⟨Matrix.isUnit_det_of_right_inverse hmul, by rw [Matrix.inv_eq_right_inv hmul, toBlocks_fromBlocks₂₂]⟩

/-- A case: unit covariances and a motion without rotation. -/
example : ∃ L, IsInformation (1 : Mat6 ℝ) 1 (transformAdjoint (⟨1, ![1, 2, 3]⟩ : Iso ℝ)⁻¹) L ∧ (1 : Mat6 ℝ).PosDef := by
  refine ⟨fromBlocks (1 + (transformAdjoint (⟨1, ![1, 2, 3]⟩ : Iso ℝ)⁻¹)ᵀ * transformAdjoint (⟨1, ![1, 2, 3]⟩ : Iso ℝ)⁻¹)
    (-(transformAdjoint (⟨1, ![1, 2, 3]⟩ : Iso ℝ)⁻¹)ᵀ) (-transformAdjoint (⟨1, ![1, 2, 3]⟩ : Iso ℝ)⁻¹) 1, ⟨?_, fun x y => ?_⟩,
    PosDef.one⟩
  · unfold Matrix.IsSymm
    rw [fromBlocks_transpose]
    simp
  · generalize transformAdjoint (⟨1, ![1, 2, 3]⟩ : Iso ℝ)⁻¹ = H
    have e : ∀ v : Fin 3 ⊕ Fin 3 → ℝ, x ⬝ᵥ (Hᵀ *ᵥ v) = (H *ᵥ x) ⬝ᵥ v := fun v => by
      rw [Matrix.dotProduct_mulVec, Matrix.vecMul_transpose]
    rw [fromBlocks_mulVec, sumElim_dotProduct_sumElim]
    simp only [Sum.elim_comp_inl, Sum.elim_comp_inr, Matrix.add_mulVec, Matrix.neg_mulVec, dotProduct_add, dotProduct_neg,
      dotProduct_sub, sub_dotProduct, ← Matrix.mulVec_mulVec, e, inv_one, Matrix.one_mulVec]
    rw [dotProduct_comm (H *ᵥ x) y]
    ring

section
variable {n : Type} [Fintype n] [DecidableEq n]

/-- One step: the best explanation of `y`, and the error of any other. -/
theorem step_error {P Q : Matrix n n ℝ} (hP : P.PosDef) (hQ : Q.PosDef) (H : Matrix n n ℝ) (y : n → ℝ) :
    ∃ z, ∀ x, squaredError P x + squaredError Q (y - H *ᵥ x) = squaredError (H * P * Hᵀ + Q) y +
      (squaredError P (x - z) + squaredError Q (H *ᵥ (x - z))) := by
  have hS : (H * P * Hᵀ + Q).PosDef := by
    have := hP.posSemidef.mul_mul_conjTranspose_same H
    rw [conjTranspose_eq_transpose_of_trivial] at this
    exact Matrix.PosDef.posSemidef_add this hQ
  set S := H * P * Hᵀ + Q with hSdef
  have iP := Matrix.nonsing_inv_mul _ ((Matrix.isUnit_iff_isUnit_det _).1 hP.isUnit)
  have iQ := Matrix.nonsing_inv_mul _ ((Matrix.isUnit_iff_isUnit_det _).1 hQ.isUnit)
  have iS := Matrix.mul_nonsing_inv _ ((Matrix.isUnit_iff_isUnit_det _).1 hS.isUnit)
  have sP : (P⁻¹)ᵀ = P⁻¹ := (conjTranspose_eq_transpose_of_trivial _).symm.trans hP.inv.isHermitian
  have sQ : (Q⁻¹)ᵀ = Q⁻¹ := (conjTranspose_eq_transpose_of_trivial _).symm.trans hQ.inv.isHermitian
  set u := S⁻¹ *ᵥ y with hu
  have hy : S *ᵥ u = y := by rw [hu, Matrix.mulVec_mulVec, iS, Matrix.one_mulVec]
  refine ⟨P *ᵥ (Hᵀ *ᵥ u), fun x => ?_⟩
  generalize hz : P *ᵥ (Hᵀ *ᵥ u) = z
  have hPz : P⁻¹ *ᵥ z = Hᵀ *ᵥ u := by rw [← hz, Matrix.mulVec_mulVec, iP, Matrix.one_mulVec]
  obtain ⟨d, rfl⟩ : ∃ d, x = z + d := ⟨x - z, by abel⟩
  have hr : y - H *ᵥ (z + d) = Q *ᵥ u - H *ᵥ d := by
    have : y = H *ᵥ z + Q *ᵥ u := by
      rw [← hy, hSdef, Matrix.add_mulVec, ← Matrix.mulVec_mulVec, ← Matrix.mulVec_mulVec, hz]
    rw [Matrix.mulVec_add, this]
    abel
  have hQu : Q⁻¹ *ᵥ (Q *ᵥ u) = u := by rw [Matrix.mulVec_mulVec, iQ, Matrix.one_mulVec]
  have cP : z ⬝ᵥ (P⁻¹ *ᵥ d) = d ⬝ᵥ (P⁻¹ *ᵥ z) := by
    rw [Matrix.dotProduct_mulVec, ← Matrix.mulVec_transpose, sP, dotProduct_comm]
  have cQ : (Q *ᵥ u) ⬝ᵥ (Q⁻¹ *ᵥ (H *ᵥ d)) = (H *ᵥ d) ⬝ᵥ u := by
    rw [Matrix.dotProduct_mulVec, ← Matrix.mulVec_transpose, sQ, hQu, dotProduct_comm]
  have e : ∀ v : n → ℝ, v ⬝ᵥ (Hᵀ *ᵥ u) = (H *ᵥ v) ⬝ᵥ u := fun v => by
    rw [Matrix.dotProduct_mulVec, Matrix.vecMul_transpose]
  have hyu : y ⬝ᵥ (S⁻¹ *ᵥ y) = (H *ᵥ z) ⬝ᵥ u + (Q *ᵥ u) ⬝ᵥ u := by
    rw [← hu, ← add_dotProduct]
    congr 1
    rw [← hy, hSdef, Matrix.add_mulVec, ← Matrix.mulVec_mulVec, ← Matrix.mulVec_mulVec, hz]
  rw [hr]
  unfold squaredError
  rw [hyu, add_sub_cancel_left]
  simp only [Matrix.mulVec_add, Matrix.mulVec_sub, dotProduct_add, add_dotProduct, dotProduct_sub, sub_dotProduct, hPz, hQu, cP,
    cQ, e]
  ring

theorem squaredError_nonneg {P : Matrix n n ℝ} (hP : P.PosDef) (x : n → ℝ) : 0 ≤ squaredError P x := by
  have := hP.inv.posSemidef.dotProduct_mulVec_nonneg x
  rwa [star_trivial] at this

end

/-- C39. Composing along a chain of motions gives what optimising the whole graph gives, for every number of poses: the least
total squared error of all the chains that end with the error `y` is the squared error of `y` with the composed covariance.
The error of a pose is the error of the pose before, seen from it, plus the independent error of the motion. -/
theorem C39_chain {P : Mat6 ℝ} (hP : P.PosDef) (T : Nat → Iso ℝ) {Q : Nat → Mat6 ℝ} (hQ : ∀ i, (Q i).PosDef)
    (C : Nat → Mat6 ℝ) (h0 : C 0 = P) (hC : ∀ i, C (i + 1) = composeTransformCovariance (C i) (Q i) (T i) 0) (k : Nat) :
    (C k).PosDef ∧ ∀ y, IsLeast { e | ∃ x : Nat → Fin 3 ⊕ Fin 3 → ℝ,
      x k = y ∧ e = chainError P (fun i => transformAdjoint (T i)⁻¹) Q k x } (squaredError (C k) y) := by
  induction k with
  | zero =>
    rw [h0]
    refine ⟨hP, fun y => ⟨⟨fun _ => y, rfl, by simp [chainError]⟩, ?_⟩⟩
    rintro e ⟨x, rfl, rfl⟩
    simp [chainError]
  | succ k ih =>
    obtain ⟨hpos, hleast⟩ := ih
    have hC' : C (k + 1) = transformAdjoint (T k)⁻¹ * C k * (transformAdjoint (T k)⁻¹)ᵀ + Q k := by
      rw [hC]; simp [composeTransformCovariance]
    rw [hC']
    generalize hH : transformAdjoint (T k)⁻¹ = H
    have hS : (H * C k * Hᵀ + Q k).PosDef := by
      have := hpos.posSemidef.mul_mul_conjTranspose_same H
      rw [conjTranspose_eq_transpose_of_trivial] at this
      exact Matrix.PosDef.posSemidef_add this (hQ k)
    have hsum : ∀ x : Nat → Fin 3 ⊕ Fin 3 → ℝ, chainError P (fun i => transformAdjoint (T i)⁻¹) Q (k + 1) x =
        chainError P (fun i => transformAdjoint (T i)⁻¹) Q k x + squaredError (Q k) (x (k + 1) - H *ᵥ x k) := fun x => by
      unfold chainError
      rw [Finset.sum_range_succ, ← hH, add_assoc]
    refine ⟨hS, fun y => ?_⟩
    obtain ⟨z, hz⟩ := step_error hpos (hQ k) H y
    constructor
    · obtain ⟨⟨x, hx, he⟩, -⟩ := hleast z
      refine ⟨Function.update x (k + 1) y, Function.update_self .., ?_⟩
      have hxk : Function.update x (k + 1) y k = z := by rw [Function.update_of_ne (by omega), hx]
      have hsame : chainError P (fun i => transformAdjoint (T i)⁻¹) Q k (Function.update x (k + 1) y) =
          chainError P (fun i => transformAdjoint (T i)⁻¹) Q k x := by
        unfold chainError
        rw [Function.update_of_ne (by omega)]
        refine congrArg _ (Finset.sum_congr rfl fun i hi => ?_)
        have := Finset.mem_range.1 hi
        rw [Function.update_of_ne (by omega), Function.update_of_ne (by omega)]
      rw [hsum, hsame, ← he, Function.update_self, hxk, hz z, sub_self]
      simp [squaredError]
    · rintro e ⟨x, hx, rfl⟩
      rw [hsum, hx]
      have h1 := (hleast (x k)).2 ⟨x, rfl, rfl⟩
      have h2 := hz (x k)
      have h3 := squaredError_nonneg hpos (x k - z)
      have h4 := squaredError_nonneg (hQ k) (H *ᵥ (x k - z))
      linarith

/-- A case: steps of one metre along x, unit covariances. -/
example : ∃ C : Nat → Mat6 ℝ, C 0 = 1 ∧ (∀ i, C (i + 1) = composeTransformCovariance (C i) 1 ⟨1, ![1, 0, 0]⟩ 0) ∧
    (1 : Mat6 ℝ).PosDef :=
  ⟨fun n => n.rec 1 fun _ c => composeTransformCovariance c 1 ⟨1, ![1, 0, 0]⟩ 0, rfl, fun _ => rfl, PosDef.one⟩

/-! ### C40 -/

/-- C40. The rotation angle of a motion is the same in all frames fixed to the body. -/
theorem C40_angle {X : Iso ℝ} (hX : Rigid X) (T : Iso ℝ) :
    rotationAngle (changeRelativeTransformFrame T X).R = rotationAngle T.R := by
  unfold rotationAngle
  have : (changeRelativeTransformFrame T X).R = X.R * T.R * X.Rᵀ := rfl
  rw [this, Matrix.trace_mul_comm, ← Matrix.mul_assoc, hX.orthogonal, Matrix.one_mul]

/-! ### C43 -/

/-- The relative transform of a motion with constant rates. -/
theorem relative_of_rates {A : Iso ℝ} (hA : Rigid A) (w v : Fin 3 → ℝ) (dt : ℝ) (B : Iso ℝ)
    (hR : B.R = A.R * expRotation (dt • w)) (ht : B.t = A.apply (dt • v)) :
    (relativeTransform A B).R = expRotation (dt • w) ∧ (relativeTransform A B).t = dt • v := by
  constructor
  · change A.Rᵀ * B.R = _
    rw [hR, ← Matrix.mul_assoc, hA.orthogonal, Matrix.one_mul]
  · change A.Rᵀ *ᵥ B.t + -(A.Rᵀ *ᵥ A.t) = _
    rw [ht]
    unfold Iso.apply
    rw [Matrix.mulVec_add, Matrix.mulVec_mulVec, hA.orthogonal, Matrix.one_mulVec, add_neg_cancel_right]

theorem length_smul (w : Fin 3 → ℝ) {dt : ℝ} (hdt : 0 < dt) :
    Real.sqrt (∑ i, (dt • w) i ^ 2) = dt * Real.sqrt (∑ i, w i ^ 2) := by
  simp only [Pi.smul_apply, smul_eq_mul, mul_pow, ← Finset.mul_sum]
  rw [Real.sqrt_mul (sq_nonneg _), Real.sqrt_sq hdt.le]

theorem rates_eq {A B : Iso ℝ} {dt : ℝ} (hdt : 0 < dt) {r w v : Fin 3 → ℝ} (hr : rotVecOfMatrix (relativeTransform A B).R = dt • r)
    (ht : (relativeTransform A B).t = dt • v) (hw : r = w) : linearRatesEigen A B dt = .ok (Sum.elim w v) := by
  subst hw
  unfold linearRatesEigen linearRates
  rw [if_neg (not_le.2 hdt)]
  dsimp only
  rw [hr, ht]
  refine congrArg _ (congrArg₂ _ ?_ ?_) <;>
  · funext i
    simp only [Pi.smul_apply, smul_eq_mul]
    rw [mul_div_cancel_left₀ _ hdt.ne']

/-- C43. A body that moves from the first pose with constant rates and turns by less than half a turn has exactly these rates. -/
theorem C43_recovers {A : Iso ℝ} (hA : Rigid A) (w v : Fin 3 → ℝ) (dt : ℝ) (hdt : 0 < dt)
    (hw : dt * Real.sqrt (∑ i, w i ^ 2) < Real.pi) (B : Iso ℝ) (hR : B.R = A.R * expRotation (dt • w))
    (ht : B.t = A.apply (dt • v)) : linearRatesEigen A B dt = .ok (Sum.elim w v) := by
  have hrot := Trajectory.expRotation_rotation (dt • w)
  obtain ⟨hrel, htr⟩ := relative_of_rates hA w v dt B hR ht
  have hvec : rotVecOfMatrix (expRotation (dt • w)) = dt • w :=
    (expRotation_injective (by rw [length_smul w hdt]; exact hw) (rotVecOfMatrix_length hrot) (rotVecOfMatrix_spec hrot).symm).symm
  exact rates_eq hdt (by rw [hrel, hvec]) htr rfl

/-- C43. After exactly half a turn the sense of the rotation is lost, but nothing else. -/
theorem C43_half_turn {A : Iso ℝ} (hA : Rigid A) (w v : Fin 3 → ℝ) (dt : ℝ) (hdt : 0 < dt)
    (hw : dt * Real.sqrt (∑ i, w i ^ 2) = Real.pi) (B : Iso ℝ) (hR : B.R = A.R * expRotation (dt • w))
    (ht : B.t = A.apply (dt • v)) :
    linearRatesEigen A B dt = .ok (Sum.elim w v) ∨ linearRatesEigen A B dt = .ok (Sum.elim (-w) v) := by
  have hrot := Trajectory.expRotation_rotation (dt • w)
  obtain ⟨hrel, htr⟩ := relative_of_rates hA w v dt B hR ht
  rcases expRotation_half (u := dt • w) (by rw [length_smul w hdt]; exact hw) (rotVecOfMatrix_length hrot)
    (rotVecOfMatrix_spec hrot).symm with h | h
  · exact .inl (rates_eq hdt (by rw [hrel, h]) htr rfl)
  · exact .inr (rates_eq (r := -w) hdt (by rw [hrel, h, smul_neg]) htr rfl)

/-- C43. The angular rate that is returned is that of a turn by at most half a turn: the shorter way round. -/
theorem C43_shortest {A B : Iso ℝ} (hA : Rigid A) (hB : Rigid B) (dt : ℝ) {rates : Fin 3 ⊕ Fin 3 → ℝ}
    (h : linearRatesEigen A B dt = .ok rates) : dt * Real.sqrt (∑ i, rates (Sum.inl i) ^ 2) ≤ Real.pi := by
  have hdt : 0 < dt := by
    by_contra hn
    rw [(C43_throws_iff A B dt).1.2 (not_lt.1 hn)] at h
    cases h
  have hAB := hA.inv.mul hB
  have hlen := rotVecOfMatrix_length (R := (relativeTransform A B).R) ⟨hAB.orthogonal, hAB.det⟩
  unfold linearRatesEigen linearRates at h
  rw [if_neg (not_le.2 hdt)] at h
  obtain rfl := Outcome.ok.inj h
  rw [← length_smul _ hdt]
  refine le_trans (le_of_eq ?_) hlen
  congr 1
  refine Finset.sum_congr rfl fun i _ => ?_
  simp only [Pi.smul_apply, smul_eq_mul, Sum.elim_inl]
  rw [mul_div_cancel₀ _ hdt.ne']

/-- A case: a turn at one radian per second about z and a velocity along x, for two seconds. -/
example : (2 : ℝ) * Real.sqrt (∑ i, (![0, 0, 1] : Fin 3 → ℝ) i ^ 2) < Real.pi ∧ Rigid (1 : Iso ℝ) ∧
    (⟨expRotation ((2 : ℝ) • ![0, 0, 1]), (2 : ℝ) • ![1, 0, 0]⟩ : Iso ℝ).R = (1 : Iso ℝ).R * expRotation ((2 : ℝ) • ![0, 0, 1]) ∧
    (⟨expRotation ((2 : ℝ) • ![0, 0, 1]), (2 : ℝ) • ![1, 0, 0]⟩ : Iso ℝ).t = (1 : Iso ℝ).apply ((2 : ℝ) • ![1, 0, 0]) := by
  refine ⟨?_, Rigid.one, ?_, ?_⟩
  · have : ∑ i, (![0, 0, 1] : Fin 3 → ℝ) i ^ 2 = 1 := by simp [Fin.sum_univ_three]
    rw [this, Real.sqrt_one]
    linarith [Real.pi_gt_three]
  · rw [Iso.one_R, Matrix.one_mul]
  · unfold Iso.apply
    rw [Iso.one_R, Matrix.one_mulVec]
    exact (add_zero _).symm

end EigenExt

end Serpent
