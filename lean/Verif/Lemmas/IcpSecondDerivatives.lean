import Verif.Model.IcpNonlinear
import Verif.Lemmas.ResidualDerivatives
import Verif.Lemmas.IcpEntriesPointDx2
import Verif.Lemmas.IcpEntriesPointDzdx
import Verif.Lemmas.IcpEntriesPlaneDx2
import Verif.Lemmas.IcpEntriesPlaneDzdx

/-!
# The matrices of the nonlinear ICP models are second derivatives
-/

namespace Serpent

namespace Icp

open Matrix Function EigenExt Lidar

/-! ### The named values and the variables -/

/-- The components of the transform with rotation vector `r` and translation `t`. -/
structure Of (tf : Components) (r t : Fin 3 → ℝ) : Prop where
  a : tf.a = len r
  sina : tf.sina = Real.sin (len r)
  cosa : tf.cosa = Real.cos (len r)
  r : tf.r = r
  t : tf.t = t

section
variable {tf : Components} {r t : Fin 3 → ℝ} (h : Of tf r t) (hr : r ≠ 0) (p q n : Fin 3 → ℝ)
include h

theorem rv_env : rv (env tf p q n) = r := by
  rw [← h.r]
  funext i
  fin_cases i <;> rfl
omit h in
theorem pv_env : pv (env tf p q n) = p := by
  funext i
  fin_cases i <;> rfl
omit h in
theorem qv_env : qv (env tf p q n) = q := by
  funext i
  fin_cases i <;> rfl
omit h in
theorem nv_env : nv (env tf p q n) = n := by
  funext i
  fin_cases i <;> rfl
theorem tv_env : tv (env tf p q n) = t := by
  rw [← h.t]
  funext i
  fin_cases i <;> rfl
theorem cf_env : cf (env tf p q n) = cof (len r) := by
  show coefs tf.a tf.cosa tf.sina = coefs _ _ _
  rw [h.a, h.sina, h.cosa]

theorem dE_eq (a k : Fin 3) : nlD k (.inl (.inl a)) (vars r t p q) = dE (env tf p q n) a k := by
  unfold dE dR
  rw [rv_env h, pv_env, cf_env h]
  rfl
theorem R_eq (k b : Fin 3) : nlD k (.inr (.inl b)) (vars r t p q) = R (env tf p q n) k b := by
  unfold R
  rw [rv_env h, cf_env h]
  rfl
theorem ddE_eq (a b k : Fin 3) : nlD2 k (.inl a) (.inl (.inl b)) (vars r t p q) = ddE (env tf p q n) a b k := by
  unfold ddE
  rw [rv_env h, pv_env, cf_env h]
  rfl
theorem dR_eq (a b k : Fin 3) : nlD2 k (.inl a) (.inr (.inl b)) (vars r t p q) = dR (env tf p q n) a k b := by
  unfold dR
  rw [rv_env h, cf_env h]
  rfl
include hr in
theorem E_eq (k : Fin 3) : residual (vars r t p q) k = E (env tf p q n) k := by
  unfold E R
  rw [rv_env h, pv_env, cf_env h, tv_env h, qv_env]
  exact residual_eq (w := vars r t p q) hr k

theorem env_a : (env tf p q n).a = len r := h.a

theorem env_sq : (env tf p q n).rx2 + (env tf p q n).ry2 + (env tf p q n).rz2 = (env tf p q n).a2 := by
  have := len_sq r
  show tf.r 0 * tf.r 0 + tf.r 1 * tf.r 1 + tf.r 2 * tf.r 2 = tf.a * tf.a
  rw [h.r, h.a]
  linarith

end

theorem nlD_t (k a : Fin 3) (y : Var → ℝ) : nlD k (.inl (.inr a)) y = dl a k := rfl
theorem nlD_q (k a : Fin 3) (y : Var → ℝ) : nlD k (.inr (.inr a)) y = -dl a k := rfl
theorem nlD2_t (k a : Fin 3) (j : Var) (y : Var → ℝ) : nlD2 k (.inr a) j y = 0 := rfl
theorem nlD2_rt (k a b : Fin 3) (y : Var → ℝ) : nlD2 k (.inl a) (.inl (.inr b)) y = 0 := rfl
theorem nlD2_rq (k a b : Fin 3) (y : Var → ℝ) : nlD2 k (.inl a) (.inr (.inr b)) y = 0 := rfl

section
variable {tf : Components} {r t : Fin 3 → ℝ} (h : Of tf r t) (hr : r ≠ 0) (p q n : Fin 3 → ℝ)
include h hr

theorem point_dx2 (i j : Fin 3 ⊕ Fin 3) :
    IsSecondPartial pointCost (.inl i) (.inl j) (vars r t p q) (2 * Lidar.PointDx2.matrix (env tf p q 0) i j) := by
  have ha : (env tf p q 0).a ≠ 0 := by
    rw [env_a h]
    exact len_ne_zero hr
  have hsq := env_sq h p q 0
  convert point_second (w := vars r t p q) hr i (.inl j) using 2
  rcases i with i | i <;> rcases j with j | j <;> fin_cases i <;> fin_cases j
  all_goals
    simp only [Lidar.PointDx2.matrix, fromBlocks_apply₁₁, fromBlocks_apply₁₂, fromBlocks_apply₂₁, fromBlocks_apply₂₂, of_apply,
      Fin.zero_eta, Fin.mk_one, Fin.reduceFinMk, cons_val, Fin.isValue, Fin.sum_univ_three, nlD_t, nlD_q, nlD2_t, nlD2_rt, nlD2_rq,
      dE_eq h p q 0, R_eq h p q 0, ddE_eq h p q 0, dR_eq h p q 0, E_eq h hr p q 0, dl_same, dl01, dl02, dl10, dl12, dl20, dl21,
      ddE_comm _ 1 0, ddE_comm _ 2 0, ddE_comm _ 2 1,
      PointDx2.entry00 (env tf p q 0) ha, PointDx2.entry01 (env tf p q 0) ha, PointDx2.entry02 (env tf p q 0) ha,
      PointDx2.entry03 (env tf p q 0) ha, PointDx2.entry04 (env tf p q 0) ha, PointDx2.entry05 (env tf p q 0) ha,
      PointDx2.entry10 (env tf p q 0) ha, PointDx2.entry11 (env tf p q 0) ha, PointDx2.entry12 (env tf p q 0) ha,
      PointDx2.entry13 (env tf p q 0) ha, PointDx2.entry14 (env tf p q 0) ha, PointDx2.entry15 (env tf p q 0) ha,
      PointDx2.entry20 (env tf p q 0) ha, PointDx2.entry21 (env tf p q 0) ha, PointDx2.entry22 (env tf p q 0) ha,
      PointDx2.entry23 (env tf p q 0) ha, PointDx2.entry24 (env tf p q 0) ha, PointDx2.entry25 (env tf p q 0) ha,
      PointDx2.entry30 (env tf p q 0) ha, PointDx2.entry31 (env tf p q 0) ha, PointDx2.entry32 (env tf p q 0) ha,
      PointDx2.entry33 (env tf p q 0), PointDx2.entry34 (env tf p q 0), PointDx2.entry35 (env tf p q 0),
      PointDx2.entry40 (env tf p q 0) ha, PointDx2.entry41 (env tf p q 0) ha, PointDx2.entry42 (env tf p q 0) ha,
      PointDx2.entry43 (env tf p q 0), PointDx2.entry44 (env tf p q 0), PointDx2.entry45 (env tf p q 0),
      PointDx2.entry50 (env tf p q 0) ha, PointDx2.entry51 (env tf p q 0) ha, PointDx2.entry52 (env tf p q 0) ha,
      PointDx2.entry53 (env tf p q 0), PointDx2.entry54 (env tf p q 0), PointDx2.entry55 (env tf p q 0)]
  all_goals ring

theorem point_dzdx (i j : Fin 3 ⊕ Fin 3) :
    IsSecondPartial pointCost (.inl i) (.inr j) (vars r t p q) (2 * Lidar.PointDzdx.matrix (env tf p q 0) i j) := by
  have ha : (env tf p q 0).a ≠ 0 := by
    rw [env_a h]
    exact len_ne_zero hr
  have hsq := env_sq h p q 0
  convert point_second (w := vars r t p q) hr i (.inr j) using 2
  rcases i with i | i <;> rcases j with j | j <;> fin_cases i <;> fin_cases j
  all_goals
    simp only [Lidar.PointDzdx.matrix, fromBlocks_apply₁₁, fromBlocks_apply₁₂, fromBlocks_apply₂₁, fromBlocks_apply₂₂, of_apply,
      Fin.zero_eta, Fin.mk_one, Fin.reduceFinMk, cons_val, Fin.isValue, Fin.sum_univ_three, nlD_t, nlD_q, nlD2_t, nlD2_rt, nlD2_rq,
      dE_eq h p q 0, R_eq h p q 0, ddE_eq h p q 0, dR_eq h p q 0, E_eq h hr p q 0, dl_same, dl01, dl02, dl10, dl12, dl20, dl21,
      ddE_comm _ 1 0, ddE_comm _ 2 0, ddE_comm _ 2 1,
      PointDzdx.entry00 (env tf p q 0) ha, PointDzdx.entry01 (env tf p q 0) ha, PointDzdx.entry02 (env tf p q 0) ha,
      PointDzdx.entry03 (env tf p q 0) ha, PointDzdx.entry04 (env tf p q 0) ha, PointDzdx.entry05 (env tf p q 0) ha,
      PointDzdx.entry10 (env tf p q 0) ha, PointDzdx.entry11 (env tf p q 0) ha, PointDzdx.entry12 (env tf p q 0) ha,
      PointDzdx.entry13 (env tf p q 0) ha, PointDzdx.entry14 (env tf p q 0) ha, PointDzdx.entry15 (env tf p q 0) ha,
      PointDzdx.entry20 (env tf p q 0) ha, PointDzdx.entry21 (env tf p q 0) ha, PointDzdx.entry22 (env tf p q 0) ha,
      PointDzdx.entry23 (env tf p q 0) ha, PointDzdx.entry24 (env tf p q 0) ha, PointDzdx.entry25 (env tf p q 0) ha,
      PointDzdx.entry30 (env tf p q 0) ha, PointDzdx.entry31 (env tf p q 0) ha, PointDzdx.entry32 (env tf p q 0) ha,
      PointDzdx.entry33 (env tf p q 0), PointDzdx.entry34 (env tf p q 0), PointDzdx.entry35 (env tf p q 0),
      PointDzdx.entry40 (env tf p q 0) ha, PointDzdx.entry41 (env tf p q 0) ha, PointDzdx.entry42 (env tf p q 0) ha,
      PointDzdx.entry43 (env tf p q 0), PointDzdx.entry44 (env tf p q 0), PointDzdx.entry45 (env tf p q 0),
      PointDzdx.entry50 (env tf p q 0) ha, PointDzdx.entry51 (env tf p q 0) ha, PointDzdx.entry52 (env tf p q 0) ha,
      PointDzdx.entry53 (env tf p q 0), PointDzdx.entry54 (env tf p q 0), PointDzdx.entry55 (env tf p q 0)]
  all_goals ring

theorem plane_dx2 (i j : Fin 3 ⊕ Fin 3) :
    IsSecondPartial (planeCost n) (.inl i) (.inl j) (vars r t p q) (2 * Lidar.PlaneDx2.matrix (env tf p q n) i j) := by
  have ha : (env tf p q n).a ≠ 0 := by
    rw [env_a h]
    exact len_ne_zero hr
  have hsq := env_sq h p q n
  have hn0 : (env tf p q n).nx = n 0 := rfl
  have hn1 : (env tf p q n).ny = n 1 := rfl
  have hn2 : (env tf p q n).nz = n 2 := rfl
  convert plane_second n (w := vars r t p q) hr i (.inl j) using 2
  rcases i with i | i <;> rcases j with j | j <;> fin_cases i <;> fin_cases j
  all_goals
    simp only [Lidar.PlaneDx2.matrix, fromBlocks_apply₁₁, fromBlocks_apply₁₂, fromBlocks_apply₂₁, fromBlocks_apply₂₂, of_apply,
      Fin.zero_eta, Fin.mk_one, Fin.reduceFinMk, cons_val, Fin.isValue, nE, ndE, nddE, nR, ndR, Fin.sum_univ_three, nlD_t, nlD_q,
      nlD2_t, nlD2_rt, nlD2_rq, nv0, nv1, nv2, hn0, hn1, hn2,
      dE_eq h p q n, R_eq h p q n, ddE_eq h p q n, dR_eq h p q n, E_eq h hr p q n, dl_same, dl01, dl02, dl10, dl12, dl20, dl21,
      ddE_comm _ 1 0, ddE_comm _ 2 0, ddE_comm _ 2 1,
      PlaneDx2.entry00 (env tf p q n) ha hsq, PlaneDx2.entry01 (env tf p q n) ha hsq, PlaneDx2.entry02 (env tf p q n) ha hsq,
      PlaneDx2.entry03 (env tf p q n) ha, PlaneDx2.entry04 (env tf p q n) ha, PlaneDx2.entry05 (env tf p q n) ha,
      PlaneDx2.entry10 (env tf p q n) ha hsq, PlaneDx2.entry11 (env tf p q n) ha hsq, PlaneDx2.entry12 (env tf p q n) ha hsq,
      PlaneDx2.entry13 (env tf p q n) ha, PlaneDx2.entry14 (env tf p q n) ha, PlaneDx2.entry15 (env tf p q n) ha,
      PlaneDx2.entry20 (env tf p q n) ha hsq, PlaneDx2.entry21 (env tf p q n) ha hsq, PlaneDx2.entry22 (env tf p q n) ha hsq,
      PlaneDx2.entry23 (env tf p q n) ha, PlaneDx2.entry24 (env tf p q n) ha, PlaneDx2.entry25 (env tf p q n) ha,
      PlaneDx2.entry30 (env tf p q n) ha hsq, PlaneDx2.entry31 (env tf p q n) ha hsq, PlaneDx2.entry32 (env tf p q n) ha hsq,
      PlaneDx2.entry33 (env tf p q n), PlaneDx2.entry34 (env tf p q n), PlaneDx2.entry35 (env tf p q n),
      PlaneDx2.entry40 (env tf p q n) ha hsq, PlaneDx2.entry41 (env tf p q n) ha hsq, PlaneDx2.entry42 (env tf p q n) ha hsq,
      PlaneDx2.entry43 (env tf p q n), PlaneDx2.entry44 (env tf p q n), PlaneDx2.entry45 (env tf p q n),
      PlaneDx2.entry50 (env tf p q n) ha hsq, PlaneDx2.entry51 (env tf p q n) ha hsq, PlaneDx2.entry52 (env tf p q n) ha hsq,
      PlaneDx2.entry53 (env tf p q n), PlaneDx2.entry54 (env tf p q n), PlaneDx2.entry55 (env tf p q n)]
  all_goals ring

theorem plane_dzdx (i j : Fin 3 ⊕ Fin 3) :
    IsSecondPartial (planeCost n) (.inl i) (.inr j) (vars r t p q) (2 * Lidar.PlaneDzdx.matrix (env tf p q n) i j) := by
  have ha : (env tf p q n).a ≠ 0 := by
    rw [env_a h]
    exact len_ne_zero hr
  have hsq := env_sq h p q n
  have hn0 : (env tf p q n).nx = n 0 := rfl
  have hn1 : (env tf p q n).ny = n 1 := rfl
  have hn2 : (env tf p q n).nz = n 2 := rfl
  convert plane_second n (w := vars r t p q) hr i (.inr j) using 2
  rcases i with i | i <;> rcases j with j | j <;> fin_cases i <;> fin_cases j
  all_goals
    simp only [Lidar.PlaneDzdx.matrix, fromBlocks_apply₁₁, fromBlocks_apply₁₂, fromBlocks_apply₂₁, fromBlocks_apply₂₂, of_apply,
      Fin.zero_eta, Fin.mk_one, Fin.reduceFinMk, cons_val, Fin.isValue, nE, ndE, nddE, nR, ndR, Fin.sum_univ_three, nlD_t, nlD_q,
      nlD2_t, nlD2_rt, nlD2_rq, nv0, nv1, nv2, hn0, hn1, hn2,
      dE_eq h p q n, R_eq h p q n, ddE_eq h p q n, dR_eq h p q n, E_eq h hr p q n, dl_same, dl01, dl02, dl10, dl12, dl20, dl21,
      ddE_comm _ 1 0, ddE_comm _ 2 0, ddE_comm _ 2 1,
      PlaneDzdx.entry00 (env tf p q n) ha, PlaneDzdx.entry01 (env tf p q n) ha, PlaneDzdx.entry02 (env tf p q n) ha,
      PlaneDzdx.entry03 (env tf p q n) ha, PlaneDzdx.entry04 (env tf p q n) ha, PlaneDzdx.entry05 (env tf p q n) ha,
      PlaneDzdx.entry10 (env tf p q n) ha, PlaneDzdx.entry11 (env tf p q n) ha, PlaneDzdx.entry12 (env tf p q n) ha,
      PlaneDzdx.entry13 (env tf p q n) ha, PlaneDzdx.entry14 (env tf p q n) ha, PlaneDzdx.entry15 (env tf p q n) ha,
      PlaneDzdx.entry20 (env tf p q n) ha, PlaneDzdx.entry21 (env tf p q n) ha, PlaneDzdx.entry22 (env tf p q n) ha,
      PlaneDzdx.entry23 (env tf p q n) ha, PlaneDzdx.entry24 (env tf p q n) ha, PlaneDzdx.entry25 (env tf p q n) ha,
      PlaneDzdx.entry30 (env tf p q n) ha, PlaneDzdx.entry31 (env tf p q n) ha, PlaneDzdx.entry32 (env tf p q n) ha,
      PlaneDzdx.entry33 (env tf p q n), PlaneDzdx.entry34 (env tf p q n), PlaneDzdx.entry35 (env tf p q n),
      PlaneDzdx.entry40 (env tf p q n) ha, PlaneDzdx.entry41 (env tf p q n) ha, PlaneDzdx.entry42 (env tf p q n) ha,
      PlaneDzdx.entry43 (env tf p q n), PlaneDzdx.entry44 (env tf p q n), PlaneDzdx.entry45 (env tf p q n),
      PlaneDzdx.entry50 (env tf p q n) ha, PlaneDzdx.entry51 (env tf p q n) ha, PlaneDzdx.entry52 (env tf p q n) ha,
      PlaneDzdx.entry53 (env tf p q n), PlaneDzdx.entry54 (env tf p q n), PlaneDzdx.entry55 (env tf p q n)]
  all_goals ring

end

end Icp

end Serpent
