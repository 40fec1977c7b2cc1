import Verif.Model.IcpNonlinear
import Verif.Lemmas.IcpSecondDerivatives
import Verif.Props.RegistrationCovariance
import Verif.Props.EigenPolar
import Mathlib.LinearAlgebra.Matrix.SchurComplement

/-!
# The derivatives of the nonlinear ICP models (C71)
-/

namespace Serpent

namespace Icp

open Matrix Function EigenExt Lidar

theorem Of.ofVector {r t : Fin 3 → ℝ} {tf : Components} (h : componentsOf r t = some tf) : Of tf r t ∧ r ≠ 0 := by
  unfold componentsOf at h
  by_cases h0 : len r = 0
  · unfold len at h0
    rw [if_pos h0] at h
    cases h
  · have h0' := h0
    unfold len at h0'
    rw [if_neg h0'] at h
    obtain rfl := Option.some.inj h
    refine ⟨⟨rfl, rfl, rfl, rfl, rfl⟩, ?_⟩
    rintro rfl
    exact h0 (by unfold len; simp)

theorem Of.ofTransform {T : Iso ℝ} (hT : Rigid T) : Of (componentsOfTransform T) (componentsOfTransform T).r T.t := by
  obtain ⟨-, ht, -, h0, -, hs, h1, h2⟩ := C81_from_transform hT
  have ha : (componentsOfTransform T).a = len (componentsOfTransform T).r := by
    unfold len
    rw [← hs, Real.sqrt_sq h0]
  exact ⟨ha, by rw [← ha]; exact h1, by rw [← ha]; exact h2, rfl, ht⟩

theorem rotation_ne {T : Iso ℝ} (hT : Rigid T) (h1 : T.R ≠ 1) : (componentsOfTransform T).r ≠ 0 := by
  obtain ⟨-, -, he, -⟩ := C81_from_transform hT
  intro h
  apply h1
  rw [← he, h]
  unfold expRotation
  simp

/-- C71. The matrices of the nonlinear point-to-point model, at every rotation vector but zero, every translation and every pair of
points: twice the first is the matrix of second derivatives by the pose of the squared residual, and twice the second that of its
mixed derivatives by the pose and the points. -/
theorem C71_point_to_point (r t : Fin 3 → ℝ) (hr : r ≠ 0) :
    ∃ tf M, componentsOf r t = some tf ∧ pointNonlin tf = some M ∧ ∀ (s g : Pt ℝ) (i j : Fin 3 ⊕ Fin 3),
      IsSecondPartial pointCost (.inl i) (.inl j) (vars r t s.pos g.pos) (2 * M.dx2 s g i j) ∧
      IsSecondPartial pointCost (.inl i) (.inr j) (vars r t s.pos g.pos) (2 * M.dzdx s g i j) := by
  obtain ⟨tf, htf, -⟩ := C81_components_partial r t hr
  have h := (Of.ofVector htf).1
  refine ⟨tf, _, htf, if_neg (by rw [h.a]; exact len_ne_zero hr), fun s g i j => ⟨?_, ?_⟩⟩
  · exact point_dx2 h hr s.pos g.pos i j
  · exact point_dzdx h hr s.pos g.pos i j

/-- C71. The same for the nonlinear point-to-plane model; the normal is that of the target point. -/
theorem C71_point_to_plane (r t : Fin 3 → ℝ) (hr : r ≠ 0) :
    ∃ tf M, componentsOf r t = some tf ∧ planeNonlin tf = some M ∧ ∀ (s g : Pt ℝ) (i j : Fin 3 ⊕ Fin 3),
      IsSecondPartial (planeCost g.normal) (.inl i) (.inl j) (vars r t s.pos g.pos) (2 * M.dx2 s g i j) ∧
      IsSecondPartial (planeCost g.normal) (.inl i) (.inr j) (vars r t s.pos g.pos) (2 * M.dzdx s g i j) := by
  obtain ⟨tf, htf, -⟩ := C81_components_partial r t hr
  have h := (Of.ofVector htf).1
  refine ⟨tf, _, htf, if_neg (by rw [h.a]; exact len_ne_zero hr), fun s g i j => ⟨?_, ?_⟩⟩
  · exact plane_dx2 h hr s.pos g.pos g.normal i j
  · exact plane_dzdx h hr s.pos g.pos g.normal i j

/-- C71. The matrices that the covariances use, for every rigid transformation that rotates and every list of correspondences, with
the nonlinear point-to-point model: they are half the second derivatives of the sum of the squared residuals, at the rotation vector of
the transformation that the code computes. -/
theorem C71_total_point {T : Iso ℝ} (hT : Rigid T) (h1 : T.R ≠ 1) (l : List (Pt ℝ × Pt ℝ)) :
    let r := (componentsOfTransform T).r
    ∃ M, pointNonlin (componentsOfTransform T) = some M ∧ expRotation r = T.R ∧ ∀ (i j : Fin 3 ⊕ Fin 3) (k : Fin l.length),
      let w := allVars r T.t (fun k => (l.get k).1.pos) (fun k => (l.get k).2.pos)
      IsSecondPartial (totalCost fun _ => pointCost) (.inl i) (.inl j) w (2 * sumDx2 M l i j) ∧
      IsSecondPartial (totalCost fun _ => pointCost) (.inl i) (.inr (k, j)) w (2 * allDzdx M l i (k, j)) := by
  have h := Of.ofTransform hT
  have hr := rotation_ne hT h1
  refine ⟨_, if_neg (by rw [h.a]; exact len_ne_zero hr), (C81_from_transform hT).2.2.1, ?_⟩
  intro i j k
  constructor
  · rw [sumDx2_eq, Matrix.sum_apply, Finset.mul_sum]
    refine totalCost_pose fun k => ?_
    rw [varsOf_allVars]
    exact point_dx2 h hr _ _ i j
  · refine totalCost_mixed ?_
    rw [varsOf_allVars]
    exact point_dzdx h hr _ _ i j

/-- C71. The same with the nonlinear point-to-plane model; the normals are those of the target points. -/
theorem C71_total_plane {T : Iso ℝ} (hT : Rigid T) (h1 : T.R ≠ 1) (l : List (Pt ℝ × Pt ℝ)) :
    let r := (componentsOfTransform T).r
    ∃ M, planeNonlin (componentsOfTransform T) = some M ∧ expRotation r = T.R ∧ ∀ (i j : Fin 3 ⊕ Fin 3) (k : Fin l.length),
      let w := allVars r T.t (fun k => (l.get k).1.pos) (fun k => (l.get k).2.pos)
      let F := totalCost fun k => planeCost (l.get k).2.normal
      IsSecondPartial F (.inl i) (.inl j) w (2 * sumDx2 M l i j) ∧
      IsSecondPartial F (.inl i) (.inr (k, j)) w (2 * allDzdx M l i (k, j)) := by
  have h := Of.ofTransform hT
  have hr := rotation_ne hT h1
  refine ⟨_, if_neg (by rw [h.a]; exact len_ne_zero hr), (C81_from_transform hT).2.2.1, ?_⟩
  intro i j k
  constructor
  · rw [sumDx2_eq, Matrix.sum_apply, Finset.mul_sum]
    refine totalCost_pose fun k => ?_
    rw [varsOf_allVars]
    exact plane_dx2 h hr _ _ _ i j
  · refine totalCost_mixed (cost := fun k => planeCost (l.get k).2.normal) ?_
    rw [varsOf_allVars]
    exact plane_dzdx h hr _ _ _ i j

/-- C71 fails at the rotation vector zero: the matrices are not numbers, although the cost is smooth. A registration that does not
rotate has no covariance with these models. -/
theorem C71_fails_zero (t : Fin 3 → ℝ) :
    ∃ T : Iso ℝ, Rigid T ∧ T.t = t ∧ pointNonlin (componentsOfTransform T) = none ∧ planeNonlin (componentsOfTransform T) = none := by
  have hT : Rigid (⟨1, t⟩ : Iso ℝ) := ⟨by simp, by simp⟩
  have ha : (componentsOfTransform ⟨1, t⟩).a = 0 := by
    obtain ⟨-, -, he, h0, hp, hs, -, hc⟩ := C81_from_transform hT
    have h := Of.ofTransform hT
    by_contra hne
    have hr : (componentsOfTransform ⟨1, t⟩).r ≠ 0 := by
      intro hz
      apply hne
      rw [h.a, hz]
      unfold len
      simp
    have htr : Matrix.trace (expRotation (componentsOfTransform ⟨1, t⟩).r) = 3 := by
      rw [he]
      simp
    have hsq := len_sq (componentsOfTransform ⟨1, t⟩).r
    have hl := len_ne_zero hr
    rw [Matrix.trace, Fin.sum_univ_three] at htr
    simp only [Matrix.diag_apply, expRotation_eq hr, rotE, dl_same, sk00, sk11, sk22, cof, coefs] at htr
    have hcos : Real.cos (len (componentsOfTransform ⟨1, t⟩).r) = 1 := by
      generalize len (componentsOfTransform ⟨1, t⟩).r = a at *
      generalize (componentsOfTransform ⟨1, t⟩).r = v at *
      have h2 : (1 - Real.cos a) / a ^ 2 * (v 0 * v 0) + (1 - Real.cos a) / a ^ 2 * (v 1 * v 1) +
          (1 - Real.cos a) / a ^ 2 * (v 2 * v 2) = 1 - Real.cos a := by
        have : (1 - Real.cos a) / a ^ 2 * (v 0 * v 0) + (1 - Real.cos a) / a ^ 2 * (v 1 * v 1) +
            (1 - Real.cos a) / a ^ 2 * (v 2 * v 2) = (1 - Real.cos a) / a ^ 2 * (v 0 ^ 2 + v 1 ^ 2 + v 2 ^ 2) := by ring
        rw [this, ← hsq]
        field_simp
      linarith
    rw [← h.a] at hcos hl
    have hpi := Real.pi_pos
    have := (Real.cos_eq_one_iff_of_lt_of_lt (by linarith) (by linarith)).1 hcos
    exact hl this
  exact ⟨⟨1, t⟩, hT, rfl, if_pos ha, if_pos ha⟩

/-! ### Covariances with the nonlinear models -/

theorem nlD2_comm (k : Fin 3) (i j : Fin 3 ⊕ Fin 3) (y : Var → ℝ) : nlD2 k i (.inl j) y = nlD2 k j (.inl i) y := by
  rcases i with i | i <;> rcases j with j | j
  · simp only [nlD2]
    exact Finset.sum_congr rfl fun l _ => by rw [ddRotE_comm]
  all_goals rfl

theorem Of.ne_zero {tf : Components} {r t : Fin 3 → ℝ} (h : Of tf r t) (ha : tf.a ≠ 0) : r ≠ 0 := by
  rintro rfl
  exact ha (by rw [h.a]; unfold len; simp)

/-- The second derivatives by the pose do not depend on the order, so the matrices are symmetric. -/
theorem nonlin_symmetric {T : Iso ℝ} (hT : Rigid T) {M : IcpModel ℝ}
    (h : pointNonlin (componentsOfTransform T) = some M ∨ planeNonlin (componentsOfTransform T) = some M) : Symmetric M := by
  have ho := Of.ofTransform hT
  intro s g
  funext i j
  rw [transpose_apply]
  by_cases ha : (componentsOfTransform T).a = 0
  · rcases h with h | h
    · unfold pointNonlin at h
      rw [if_pos ha] at h
      cases h
    · unfold planeNonlin at h
      rw [if_pos ha] at h
      cases h
  have hr := ho.ne_zero ha
  rcases h with h | h
  · unfold pointNonlin at h
    rw [if_neg ha] at h
    obtain rfl := Option.some.inj h
    have h1 := (point_dx2 ho hr s.pos g.pos i j).unique (point_second (w := vars (componentsOfTransform T).r T.t s.pos g.pos) hr i (.inl j))
    have h2 := (point_dx2 ho hr s.pos g.pos j i).unique (point_second (w := vars (componentsOfTransform T).r T.t s.pos g.pos) hr j (.inl i))
    show Lidar.PointDx2.matrix (env (componentsOfTransform T) s.pos g.pos 0) j i =
      Lidar.PointDx2.matrix (env (componentsOfTransform T) s.pos g.pos 0) i j
    have h1 := mul_left_cancel₀ two_ne_zero h1
    have h2 := mul_left_cancel₀ two_ne_zero h2
    rw [h1, h2]
    exact Finset.sum_congr rfl fun k _ => by rw [nlD2_comm, mul_comm (nlD k _ _)]
  · unfold planeNonlin at h
    rw [if_neg ha] at h
    obtain rfl := Option.some.inj h
    have h1 := (plane_dx2 ho hr s.pos g.pos g.normal i j).unique (plane_second _ (w := vars (componentsOfTransform T).r T.t s.pos g.pos) hr i (.inl j))
    have h2 := (plane_dx2 ho hr s.pos g.pos g.normal j i).unique (plane_second _ (w := vars (componentsOfTransform T).r T.t s.pos g.pos) hr j (.inl i))
    show Lidar.PlaneDx2.matrix (env (componentsOfTransform T) s.pos g.pos g.normal) j i =
      Lidar.PlaneDx2.matrix (env (componentsOfTransform T) s.pos g.pos g.normal) i j
    have h1 := mul_left_cancel₀ two_ne_zero h1
    have h2 := mul_left_cancel₀ two_ne_zero h2
    rw [h1, h2, mul_comm]
    congr 2
    exact Finset.sum_congr rfl fun k _ => by rw [nlD2_comm]

/-- C66. With the nonlinear models, every covariance that is computed by the method of Censi is the one propagated from the errors of
the points, and is symmetric and positive semidefinite. -/
theorem C66_censi_nonlinear {T : Iso ℝ} (hT : Rigid T) {M : IcpModel ℝ}
    (h : pointNonlin (componentsOfTransform T) = some M ∨ planeNonlin (componentsOfTransform T) = some M)
    (l : List (Pt ℝ × Pt ℝ)) {v b : ℝ} (hv : 0 ≤ v) (hb : 0 ≤ b) :
    (∀ C, censiIid M v l = some C → C = propagated (sensitivity ((2 : ℝ) • sumDx2 M l) ((2 : ℝ) • allDzdx M l)) (v • 1)) ∧
    (∀ C, censiRange M v l = some C → C = propagated (sensitivity ((2 : ℝ) • sumDx2 M l) ((2 : ℝ) • allDzdx M l))
      (rangeCovariance v (fun k => (l.get k).1.unit) (fun k => (l.get k).2.unit))) ∧
    ∀ C, censiIid M v l = some C ∨ censiRange M v l = some C ∨ censiRangeBias M v b l = some C → C.PosSemidef := by
  have hM := nonlin_symmetric hT h
  refine ⟨fun C hC => ?_, fun C hC => ?_, fun C hC => C66_censi_valid hM l hv hb C hC⟩
  · have := (C66_defined M l v b).1.1 (by rw [hC]; rfl)
    rw [C66_censi_iid hM l this, Option.some.injEq] at hC
    exact hC.symm
  · have := (C66_defined M l v b).2.1.1 (by rw [hC]; rfl)
    rw [C66_censi_range hM l this, Option.some.injEq] at hC
    exact hC.symm

example : (![0, 0, 1] : Fin 3 → ℝ) ≠ 0 := fun h => by have := congrFun h 2; simp at this

/-! ### A correspondence with a Hessian that is not positive semidefinite -/

/-- Half a turn about the x axis. -/
def halfTurn : Iso ℝ := ⟨!![1, 0, 0; 0, -1, 0; 0, 0, -1], 0⟩

theorem halfTurn_rigid : Rigid halfTurn := by
  constructor
  · funext i j
    fin_cases i <;> fin_cases j <;> simp [halfTurn, Matrix.mul_apply, Fin.sum_univ_three]
  · simp [halfTurn, det_fin_three]

theorem halfTurn_components :
    let tf := componentsOfTransform halfTurn
    tf.a = Real.pi ∧ tf.cosa = -1 ∧ tf.sina = 0 ∧ tf.r 0 ^ 2 = Real.pi ^ 2 ∧ tf.r 1 = 0 ∧ tf.r 2 = 0 ∧ tf.t = 0 := by
  intro tf
  have ho := Of.ofTransform halfTurn_rigid
  obtain ⟨-, -, he, h0, hp, -, -, -⟩ := C81_from_transform halfTurn_rigid
  have hr : tf.r ≠ 0 := rotation_ne halfTurn_rigid (by
    intro h
    have := congrFun (congrFun h 1) 1
    simp [halfTurn] at this
    norm_num at this)
  have hsq := len_sq tf.r
  have hl := len_ne_zero hr
  have hent : ∀ k j, rotE (cof (len tf.r)) tf.r k j = halfTurn.R k j := by
    intro k j
    rw [← expRotation_eq hr]
    exact congrFun (congrFun he k) j
  have e00 := hent 0 0
  have e11 := hent 1 1
  have e22 := hent 2 2
  simp only [rotE, cof, coefs, dl_same, sk00, sk11, sk22, halfTurn] at e00 e11 e22
  simp at e00 e11 e22
  have ha : tf.a = len tf.r := ho.a
  have hsin := ho.sina
  have hcos := ho.cosa
  change 0 ≤ tf.a at h0
  change tf.a ≤ Real.pi at hp
  change tf.sina = Real.sin (len tf.r) at hsin
  change tf.cosa = Real.cos (len tf.r) at hcos
  have hc : Real.cos (len tf.r) = -1 := by
    generalize len tf.r = a at *
    have h2 : (1 - Real.cos a) / a ^ 2 * (tf.r 0 * tf.r 0) + (1 - Real.cos a) / a ^ 2 * (tf.r 1 * tf.r 1) +
        (1 - Real.cos a) / a ^ 2 * (tf.r 2 * tf.r 2) = 1 - Real.cos a := by
      have : (1 - Real.cos a) / a ^ 2 * (tf.r 0 * tf.r 0) + (1 - Real.cos a) / a ^ 2 * (tf.r 1 * tf.r 1) +
          (1 - Real.cos a) / a ^ 2 * (tf.r 2 * tf.r 2) = (1 - Real.cos a) / a ^ 2 * (tf.r 0 ^ 2 + tf.r 1 ^ 2 + tf.r 2 ^ 2) := by ring
      rw [this, ← hsq]
      field_simp
    linarith
  have hpi : len tf.r = Real.pi := by
    have h1 : Real.cos (len tf.r) = Real.cos Real.pi := by rw [hc, Real.cos_pi]
    rw [ha] at h0 hp
    exact Real.injOn_cos ⟨h0, hp⟩ ⟨Real.pi_pos.le, le_refl _⟩ h1
  have hz : ∀ x : ℝ, Real.cos (len tf.r) + (1 - Real.cos (len tf.r)) / len tf.r ^ 2 * (x * x) = -1 → x = 0 := by
    intro x hx
    rw [hc] at hx
    have h3 : (1 - -1 : ℝ) / len tf.r ^ 2 * (x * x) = 0 := by linarith
    rcases mul_eq_zero.1 h3 with h4 | h4
    · have : (1 - -1 : ℝ) / len tf.r ^ 2 ≠ 0 := div_ne_zero (by norm_num) (pow_ne_zero 2 hl)
      exact absurd h4 this
    · exact mul_self_eq_zero.1 h4
  have h1 := hz _ e11
  have h2 := hz _ e22
  refine ⟨by rw [ha, hpi], by rw [hcos, hc], by rw [hsin, hpi, Real.sin_pi], ?_, h1, h2, ho.t⟩
  rw [h1, h2, hpi] at hsq
  linarith

/-- Half a turn is a rotation that meets the hypotheses of the theorems above. -/
example : Rigid halfTurn ∧ halfTurn.R ≠ 1 ∧ ∃ M, planeNonlin (componentsOfTransform halfTurn) = some M := by
  refine ⟨halfTurn_rigid, ?_, _, if_neg ?_⟩
  · intro h
    have := congrFun (congrFun h 1) 1
    simp [halfTurn] at this
    norm_num at this
  · rw [halfTurn_components.1]
    exact Real.pi_ne_zero

/-- A correspondence of a registration that turns by half a turn, with a large residual. -/
def farPoint : List (Pt ℝ × Pt ℝ) := [(⟨![1, 0, 0], 0, 0⟩, ⟨![-1, -1, 0], 0, 0⟩)]

/-- C66 fails for the linear least squares covariance with the nonlinear model (a combination that can be configured): with an
invertible Hessian and a positive variance, the covariance need not be positive semidefinite. -/
theorem C66_fails_nonlinear : ∃ (T : Iso ℝ) (M : IcpModel ℝ) (l : List (Pt ℝ × Pt ℝ)) (C : Mat6 ℝ), Rigid T ∧
    pointNonlin (componentsOfTransform T) = some M ∧ llsIid M 1 l = some C ∧ ¬ C.PosSemidef := by
  obtain ⟨ha, hc, hs, h0, h1, h2, ht⟩ := halfTurn_components
  have ho := Of.ofTransform halfTurn_rigid
  have hpi := Real.pi_ne_zero
  have hne : (componentsOfTransform halfTurn).a ≠ 0 := by rw [ha]; exact hpi
  generalize hρ : (componentsOfTransform halfTurn).r 0 = ρ at h0
  have h3 : ρ ^ 3 = Real.pi ^ 2 * ρ := by rw [← h0]; ring
  have h4 : ρ ^ 4 = Real.pi ^ 4 := by
    have : ρ ^ 4 = (ρ ^ 2) ^ 2 := by ring
    rw [this, h0]
    ring
  set e := env (componentsOfTransform halfTurn) ![1, 0, 0] ![-1, -1, 0] 0 with he
  have hH : Lidar.PointDx2.matrix e = fromBlocks
      !![0, -2 / Real.pi ^ 2, -ρ / Real.pi ^ 2; -2 / Real.pi ^ 2, -4 / Real.pi ^ 2, 0; -ρ / Real.pi ^ 2, 0, -4 / Real.pi ^ 2]
      !![0, 0, 0; 0, 2 * ρ / Real.pi ^ 2, 0; 0, 0, 2 * ρ / Real.pi ^ 2]
      !![0, 0, 0; 0, 2 * ρ / Real.pi ^ 2, 0; 0, 0, 2 * ρ / Real.pi ^ 2] 1 := by
    have hea : e.a ≠ 0 := hne
    have hsq : e.rx2 + e.ry2 + e.rz2 = e.a2 := env_sq ho _ _ _
    have hrv : rv e = ![ρ, 0, 0] := by
      funext i
      fin_cases i
      · exact hρ
      · exact h1
      · exact h2
    have hcf : cf e = ⟨-1, 0, 2 / Real.pi ^ 2, -1 / Real.pi ^ 2, -4 / Real.pi ^ 4, 3 / Real.pi ^ 4,
        (16 - Real.pi ^ 2) / Real.pi ^ 6⟩ := by
      show coefs (componentsOfTransform halfTurn).a (componentsOfTransform halfTurn).cosa (componentsOfTransform halfTurn).sina = _
      rw [ha, hc, hs]
      unfold coefs
      congr 1 <;> field_simp <;> ring
    have htv : tv e = 0 := by
      funext i
      fin_cases i
      · exact congrFun ht 0
      · exact congrFun ht 1
      · exact congrFun ht 2
    have hpv : pv e = ![1, 0, 0] := pv_env _ _ _
    have hqv : qv e = ![-1, -1, 0] := qv_env _ _ _
    have hE : ∀ k, E e k = ![2, 1, 0] k := by
      intro k
      unfold E R rotE
      rw [hrv, hcf, htv, hpv, hqv]
      fin_cases k <;> simp [Fin.sum_univ_three, dl_same, dl01, dl02, dl10, dl12, dl20, dl21, sk00, sk10, sk20] <;> field_simp <;>
        linarith
    have hdE : ∀ i k, dE e i k = !![0, 0, 0; 0, 2 * ρ / Real.pi ^ 2, 0; 0, 0, 2 * ρ / Real.pi ^ 2] i k := by
      intro i k
      unfold dE dR dRotE
      rw [hrv, hcf, hpv]
      fin_cases i <;> fin_cases k <;>
        simp [Fin.sum_univ_three, dl_same, dl01, dl02, dl10, dl12, dl20, dl21, sk00, sk10, sk20, bs] <;> field_simp <;>
        simp only [h0] <;> ring
    have hdd : ∀ i j k, ddE e i j k = ![!![0, 0, 0; 0, -2 / Real.pi ^ 2, ρ / Real.pi ^ 2 ; 0, -ρ / Real.pi ^ 2, -2 / Real.pi ^ 2],
        !![0, -2 / Real.pi ^ 2, ρ / Real.pi ^ 2; -4 / Real.pi ^ 2, 0, 0; 0, 0, 0],
        !![0, -ρ / Real.pi ^ 2, -2 / Real.pi ^ 2; 0, 0, 0; -4 / Real.pi ^ 2, 0, 0]] i j k := by
      intro i j k
      unfold ddE ddRotE
      rw [hrv, hcf, hpv]
      fin_cases i <;> fin_cases j <;> fin_cases k <;>
        simp [Fin.sum_univ_three, dl_same, dl01, dl02, dl10, dl12, dl20, dl21, sk00, sk10, sk20, bs] <;> field_simp <;>
        simp only [h0] <;> ring
    funext i j
    rcases i with i | i <;> rcases j with j | j <;> fin_cases i <;> fin_cases j
    all_goals
      simp only [Lidar.PointDx2.matrix, fromBlocks_apply₁₁, fromBlocks_apply₁₂, fromBlocks_apply₂₁, fromBlocks_apply₂₂, of_apply,
        Fin.zero_eta, Fin.mk_one, Fin.reduceFinMk, cons_val, Fin.isValue, hE, hdE, hdd,
        PointDx2.entry00 e hea, PointDx2.entry01 e hea, PointDx2.entry02 e hea, PointDx2.entry03 e hea, PointDx2.entry04 e hea,
        PointDx2.entry05 e hea, PointDx2.entry10 e hea, PointDx2.entry11 e hea, PointDx2.entry12 e hea, PointDx2.entry13 e hea,
        PointDx2.entry14 e hea, PointDx2.entry15 e hea, PointDx2.entry20 e hea, PointDx2.entry21 e hea, PointDx2.entry22 e hea,
        PointDx2.entry23 e hea, PointDx2.entry24 e hea, PointDx2.entry25 e hea, PointDx2.entry30 e hea, PointDx2.entry31 e hea,
        PointDx2.entry32 e hea, PointDx2.entry33 e, PointDx2.entry34 e, PointDx2.entry35 e, PointDx2.entry40 e hea,
        PointDx2.entry41 e hea, PointDx2.entry42 e hea, PointDx2.entry43 e, PointDx2.entry44 e, PointDx2.entry45 e,
        PointDx2.entry50 e hea, PointDx2.entry51 e hea, PointDx2.entry52 e hea, PointDx2.entry53 e, PointDx2.entry54 e,
        PointDx2.entry55 e]
    all_goals simp
    all_goals (field_simp; rw [h0]; field_simp; norm_num)
  have hsum : sumDx2 (⟨fun s g => Lidar.PointDx2.matrix (env (componentsOfTransform halfTurn) s.pos g.pos 0),
      fun s g => Lidar.PointDzdx.matrix (env (componentsOfTransform halfTurn) s.pos g.pos 0)⟩ : IcpModel ℝ) farPoint =
      Lidar.PointDx2.matrix e := by
    unfold sumDx2 farPoint
    simp [he]
  have hdet : IsUnit (Lidar.PointDx2.matrix e).det := by
    rw [hH, det_fromBlocks_one₂₂, det_fin_three, isUnit_iff_ne_zero]
    simp only [Matrix.sub_apply, Matrix.mul_apply, Fin.sum_univ_three, of_apply, cons_val', cons_val, Fin.isValue]
    have hq : 2 * ρ / Real.pi ^ 2 * (2 * ρ / Real.pi ^ 2) = 4 / Real.pi ^ 2 := by
      have : 2 * ρ / Real.pi ^ 2 * (2 * ρ / Real.pi ^ 2) = 4 * ρ ^ 2 / (Real.pi ^ 2 * Real.pi ^ 2) := by ring
      rw [this, h0]
      field_simp
    have hq' : -ρ / Real.pi ^ 2 * (-ρ / Real.pi ^ 2) = 1 / Real.pi ^ 2 := by
      have : -ρ / Real.pi ^ 2 * (-ρ / Real.pi ^ 2) = ρ ^ 2 / (Real.pi ^ 2 * Real.pi ^ 2) := by ring
      rw [this, h0]
      field_simp
    rw [hq]
    have hpos : 0 < 8 / Real.pi ^ 2 * (4 / Real.pi ^ 4 + 1 / Real.pi ^ 2) := by
      have := Real.pi_pos
      positivity
    refine ne_of_gt (lt_of_lt_of_eq hpos ?_)
    rw [← hq']
    ring
  refine ⟨halfTurn, _, farPoint, (Lidar.PointDx2.matrix e)⁻¹, halfTurn_rigid, if_neg hne, ?_, ?_⟩
  · unfold llsIid
    rw [hsum, inverse_some hdet, Option.map_some, one_smul]
  · intro hC
    have hp := hC.inv
    rw [nonsing_inv_nonsing_inv _ hdet] at hp
    have := hp.diag_nonneg (i := .inl 1)
    rw [hH] at this
    simp at this
    have hpos := Real.pi_pos
    have h5 : -4 / Real.pi ^ 2 < 0 := div_neg_of_neg_of_pos (by norm_num) (by positivity)
    linarith

end Icp

end Serpent
