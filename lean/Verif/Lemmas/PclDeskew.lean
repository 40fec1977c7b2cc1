import Verif.Model.PclDeskew
import Verif.Spec.PclDeskew
import Verif.Lemmas.EigenRos
import Verif.Lemmas.PclPoints

/-!
# Lemmas on the interpolation between the poses at the start and the end
-/

namespace Serpent

namespace Pcl

open EigenExt EigenRos Matrix

/-- The unit quaternion of a rotation by `2 φ`. -/
noncomputable def quatAbout (a : Fin 3 → ℝ) (φ : ℝ) : Quat :=
  ⟨Real.cos φ, Real.sin φ * a 0, Real.sin φ * a 1, Real.sin φ * a 2⟩

theorem quatAbout_unit {a : Fin 3 → ℝ} (ha : ∑ i, a i ^ 2 = 1) (φ : ℝ) : Quat.Unit (quatAbout a φ) := by
  rw [Fin.sum_univ_three] at ha
  unfold Quat.Unit quatAbout
  have := Real.sin_sq_add_cos_sq φ
  dsimp only
  linear_combination Real.sin φ ^ 2 * ha + this

theorem quatAbout_toMatrix (a : Fin 3 → ℝ) (φ : ℝ) : (quatAbout a φ).toMatrix = rotationAbout a (2 * φ) := by
  have hs := Real.sin_two_mul φ
  have hc : 1 - Real.cos (2 * φ) = 2 * Real.sin φ ^ 2 := by rw [Real.cos_two_mul']; have := Real.sin_sq_add_cos_sq φ; linarith
  unfold rotationAbout
  rw [hs, hc]
  funext i j
  fin_cases i <;> fin_cases j <;>
    simp [quatAbout, Quat.toMatrix] <;> ring

theorem slerp_about {a : Fin 3 → ℝ} {φ : ℝ} (h0 : 0 ≤ φ) (h1 : φ < Real.pi / 2)
    (hφ : φ = 0 ∨ Real.cos φ < 1 - epsilon) {q : Quat} (hq : q = quatAbout a φ ∨ q = (quatAbout a φ).neg) (s : ℝ) :
    slerp s Quat.id q = quatAbout a (s * φ) := by
  have hcos : 0 < Real.cos φ := Real.cos_pos_of_mem_Ioo ⟨by linarith, h1⟩
  have harc : Real.arccos (Real.cos φ) = φ := Real.arccos_cos h0 (by linarith)
  have hdot : dot Quat.id q = q.w := by unfold dot Quat.id; dsimp only; ring
  have habs : |q.w| = Real.cos φ := by
    rcases hq with rfl | rfl
    · exact abs_of_pos hcos
    · show |-Real.cos φ| = _
      rw [abs_neg, abs_of_pos hcos]
  unfold slerp
  dsimp only
  rw [hdot, habs, harc]
  have key : ∀ c0 c1 : ℝ, c0 + c1 * Real.cos φ = Real.cos (s * φ) → c1 * Real.sin φ = Real.sin (s * φ) →
      (⟨c0 * Quat.id.w + (if q.w < 0 then -c1 else c1) * q.w, c0 * Quat.id.x + (if q.w < 0 then -c1 else c1) * q.x,
        c0 * Quat.id.y + (if q.w < 0 then -c1 else c1) * q.y, c0 * Quat.id.z + (if q.w < 0 then -c1 else c1) * q.z⟩ : Quat) =
      quatAbout a (s * φ) := by
    intro c0 c1 e0 e1
    rcases hq with rfl | rfl
    · have : ¬ (quatAbout a φ).w < 0 := not_lt.2 hcos.le
      rw [if_neg this]
      unfold quatAbout Quat.id
      ext <;> dsimp only <;> first | linear_combination e0 | skip
      · linear_combination a 0 * e1
      · linear_combination a 1 * e1
      · linear_combination a 2 * e1
    · have : (quatAbout a φ).neg.w < 0 := by show -Real.cos φ < 0; linarith
      rw [if_pos this]
      unfold quatAbout Quat.id Quat.neg
      ext <;> dsimp only <;> first | linear_combination e0 | skip
      · linear_combination a 0 * e1
      · linear_combination a 1 * e1
      · linear_combination a 2 * e1
  rcases hφ with rfl | hφ
  · have hge : Real.cos 0 ≥ 1 - epsilon := by rw [Real.cos_zero]; have := epsilon_pos; linarith
    rw [if_pos hge, if_pos hge]
    exact key _ _ (by simp) (by simp)
  · have hge : ¬ Real.cos φ ≥ 1 - epsilon := not_le.2 hφ
    rw [if_neg hge, if_neg hge]
    have hsin : Real.sin φ ≠ 0 := by
      intro h
      have := Real.sin_sq_add_cos_sq φ
      rw [h] at this
      have := epsilon_pos
      nlinarith
    refine key _ _ ?_ ?_
    · have : Real.sin ((1 - s) * φ) = Real.sin φ * Real.cos (s * φ) - Real.cos φ * Real.sin (s * φ) := by
        rw [← Real.sin_sub]; congr 1; ring
      rw [this]
      field_simp
      ring
    · field_simp

/-- The interpolated transform turns about the axis and moves along the line of the skew, in proportion to the fraction. -/
theorem interpTransform_eq {skew : Iso ℝ} {a : Fin 3 → ℝ} {θ : ℝ} (ha : ∑ i, a i ^ 2 = 1) (h0 : 0 ≤ θ) (h1 : θ < Real.pi)
    (hθ : θ = 0 ∨ Real.cos (θ / 2) < 1 - epsilon) (hR : skew.R = rotationAbout a θ) (s : ℝ) :
    interpTransform skew s = ⟨rotationAbout a (s * θ), s • skew.t⟩ := by
  have hm : (quatAbout a (θ / 2)).toMatrix = skew.R := by
    rw [quatAbout_toMatrix, hR]; congr 1; ring
  have hu := quatAbout_unit ha (θ / 2)
  have hrot : Quat.Rotation skew.R := hm ▸ hu.rotation
  have hq : Quat.ofMatrix skew.R = quatAbout a (θ / 2) ∨ Quat.ofMatrix skew.R = (quatAbout a (θ / 2)).neg :=
    Quat.eq_or_neg (Quat.ofMatrix_unit hrot) hu (by rw [Quat.toMatrix_ofMatrix hrot, hm])
  unfold interpTransform
  rw [slerp_about (by linarith) (by linarith) (by rcases hθ with h | h; · left; linarith
                                                  · right; exact h) hq, quatAbout_toMatrix]
  congr 2
  ring

theorem poseAt_rigid {a : Fin 3 → ℝ} (ha : ∑ i, a i ^ 2 = 1) (θ : ℝ) (d : Fin 3 → ℝ) (dt τ : ℝ) :
    Rigid (poseAt a θ d dt τ) := by
  have : (poseAt a θ d dt τ).R = (quatAbout a (τ / dt * θ / 2)).toMatrix := by
    rw [quatAbout_toMatrix]
    show rotationAbout a (τ / dt * θ) = _
    congr 1
    ring
  have hr := (quatAbout_unit ha (τ / dt * θ / 2)).rotation
  rw [← this] at hr
  exact ⟨hr.orthogonal, hr.det⟩

/-- A rigid transform maps different points to different points. -/
theorem rigid_inj {T : Iso ℝ} (h : Rigid T) {p q : Fin 3 → ℝ} (e : T.apply p = T.apply q) : p = q := by
  unfold Iso.apply at e
  have e' : T.R *ᵥ p = T.R *ᵥ q := add_right_cancel e
  have := congrArg (T.Rᵀ *ᵥ ·) e'
  simp only [Matrix.mulVec_mulVec, h.orthogonal, Matrix.one_mulVec] at this
  exact this

theorem apply_inv {T : Iso ℝ} (h : Rigid T) (p : Fin 3 → ℝ) : T.apply ((T⁻¹).apply p) = p := by
  have ho : T.R * T.Rᵀ = 1 := mul_eq_one_comm.1 h.orthogonal
  show T.R *ᵥ (T.Rᵀ *ᵥ p + -(T.Rᵀ *ᵥ T.t)) + T.t = p
  rw [Matrix.mulVec_add, Matrix.mulVec_neg, Matrix.mulVec_mulVec, Matrix.mulVec_mulVec, ho, Matrix.one_mulVec, Matrix.one_mulVec]
  simp

theorem apply_mul (A B : Iso ℝ) (p : Fin 3 → ℝ) : (A * B).apply p = A.apply (B.apply p) := by
  show (A.R * B.R) *ᵥ p + (A.R *ᵥ B.t + A.t) = A.R *ᵥ (B.R *ᵥ p + B.t) + A.t
  rw [Matrix.mulVec_add, Matrix.mulVec_mulVec, add_assoc]

/-- The deskewed point, seen from the pose at the new time, is the point seen from the pose at its time. -/
theorem deskewPoint_spec {skew : Iso ℝ} {a : Fin 3 → ℝ} {θ dt : ℝ} {newTime stamp : Nat} (ha : ∑ i, a i ^ 2 = 1) (h0 : 0 ≤ θ)
    (h1 : θ < Real.pi) (hθ : θ = 0 ∨ Real.cos (θ / 2) < 1 - epsilon) (hR : skew.R = rotationAbout a θ)
    (p : Fin 3 → ℝ) (t : ℝ) :
    (poseAt a θ skew.t dt (newTimeSeconds newTime stamp)).apply (deskewPoint skew dt newTime stamp p t) =
      (poseAt a θ skew.t dt t).apply p := by
  unfold deskewPoint
  rw [interpTransform_eq ha h0 h1 hθ hR, interpTransform_eq ha h0 h1 hθ hR, apply_mul]
  exact apply_inv (poseAt_rigid ha θ skew.t dt (newTimeSeconds newTime stamp)) _

theorem newTimeSeconds_eq {newTime stamp : Nat} (h : stamp ≤ newTime) (h64 : newTime < 2 ^ 64) :
    newTimeSeconds newTime stamp = ((newTime : ℝ) - stamp) / 10 ^ 6 := by
  unfold newTimeSeconds
  have : (newTime + 2 ^ 64 - stamp) % 2 ^ 64 = newTime - stamp := by omega
  rw [this, Nat.cast_sub h]

end Pcl

end Serpent
