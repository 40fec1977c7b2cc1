import Verif.Props.BackEndSched
import Verif.Props.EigenValidity
import Verif.Props.RegistrationMessage
import Verif.Props.RegistrationCovariance
import Mathlib.Analysis.Matrix.Order

/-!
# C18 for the covariances that the registration publishes

The validity test of the back end is `is_valid_covariance`, which C42 characterises; the covariance it gets is the one published by
the registration (C99), with the blocks exchanged. Together: every result with a positive definite covariance is refused. Numbers are
real numbers here; rounding in the estimation can make a matrix asymmetric, which is what the test then lets through.
-/

namespace Serpent

namespace BackEnd

open Graph M EigenExt Lidar Icp

variable {Val D O I : Type}

/-- The test of the back end is that of `eigen_ext`, with its default tolerance (optimisation.cpp:277). -/
def ChecksCovariances (api : Api Val D O (Matrix (Fin 6) (Fin 6) ℝ) I) : Prop :=
  ∀ c, api.validCov c = true ↔ isValidCovariance c 0 = .ok true

/-- **C18 fails.** In every reachable state, a registration message with a positive definite covariance is refused with an exception,
and no factor is added. -/
theorem C18_fails_positive_definite {er : EndRead} {api : Api Val D O (Matrix (Fin 6) (Fin 6) ℝ) I} (hapi : ChecksCovariances api)
    {cfg : Cfg} {o : O} {s : Sys Val D O} (h : NodeReach er api cfg o s) (hc : cfg.reg = true)
    (msg : RegMsg D (Matrix (Fin 6) (Fin 6) ℝ)) (hp : msg.cov.PosDef) :
    ∃ s', nodeStep er api cfg (.reg msg) s = some (.throws, s') ∧ s'.be.isam.gm.factors = s.be.isam.gm.factors :=
  C18_fails_valid_rejected h hc msg ((hapi _).2 ((C42_default _).2 hp))

/-- The rows and columns of the two blocks, numbered from 0 to 5 (conversion of the 36 entries of the message, geometry_msgs). -/
def flat (m : Mat6 ℝ) : Matrix (Fin 6) (Fin 6) ℝ :=
  m.submatrix (finSumFinEquiv (m := 3) (n := 3)).symm (finSumFinEquiv (m := 3) (n := 3)).symm

/-- **C18 fails.** So the results of the registration are refused whenever the estimated covariance `m` is positive definite, whatever
the mounting `X` of the lidar and the transform `T`: `M` is the covariance in the message, and the back end sees it with the blocks
exchanged (`from_ros`). -/
theorem C18_fails_every_registration {er : EndRead} {api : Api Val D O (Matrix (Fin 6) (Fin 6) ℝ) I} (hapi : ChecksCovariances api)
    {cfg : Cfg} {o : O} {s : Sys Val D O} (h : NodeReach er api cfg o s) (hc : cfg.reg = true)
    {X : Iso ℝ} (hX : Rigid X) (frame : String) (T : Iso ℝ) {m : Mat6 ℝ} (hm : m.PosDef) (stamp : Int) (M : Mat6 ℝ)
    (hM : ∀ i j, (refinedTransform X (transformAdjoint X) frame T (fun i j => some (m i j)) stamp).covariance i j = some (M i j))
    (msg : RegMsg D (Matrix (Fin 6) (Fin 6) ℝ))
    (hmsg : reorderCovariance (flat M) 3 = .ok msg.cov) :
    ∃ s', nodeStep er api cfg (.reg msg) s = some (.throws, s') ∧ s'.be.isam.gm.factors = s.be.isam.gm.factors := by
  obtain ⟨m', h1, -, h2⟩ := C99_valid hX frame T m stamp
  have e : M = m' := by
    funext i j
    exact Option.some.inj ((hM i j).symm.trans (h1 i j))
  subst e
  refine C18_fails_positive_definite hapi h hc msg ?_
  refine (C38_validity _ _ _ hmsg).2.2.2 ?_
  exact (h2 hm).submatrix (Equiv.injective _)

/-- C66. With a positive variance, every linear least squares covariance of a linearised model is positive definite: no direction of the
pose is reported as known exactly. -/
theorem C66_lls_definite_partial (r t : Fin 3 → ℝ) (l : List (Pt ℝ × Pt ℝ)) {v : ℝ} (hv : 0 < v) (C : Mat6 ℝ)
    (h : llsIid (pointLin r t) v l = some C ∨ llsIid (planeLin r t) v l = some C) : C.PosDef := by
  refine (C66_lls_valid_partial r t l hv.le C h).posDef_iff_isUnit.2 ?_
  have : ∀ M : IcpModel ℝ, llsIid M v l = some C → IsUnit C := by
    intro M h
    have hdet : IsUnit (sumDx2 M l).det := by
      rw [← (C66_defined M l v v).2.2.2.1, h]; rfl
    obtain ⟨C', h1, h2, h3⟩ := C66_lls (M := M) l hdet v
    rw [h, Option.some.injEq] at h1
    subst h1
    refine ⟨⟨C, v⁻¹ • sumDx2 M l, ?_, ?_⟩, rfl⟩
    · rw [Matrix.mul_smul, h2, smul_smul, inv_mul_cancel₀ hv.ne', one_smul]
    · rw [Matrix.smul_mul, h3, smul_smul, inv_mul_cancel₀ hv.ne', one_smul]
  exact h.elim (this _) (this _)

/-- **C18 fails.** With the linear least squares estimate, a positive variance and a linearised model, no result of the registration
is accepted, whatever the correspondences `l`. -/
theorem C18_fails_least_squares {er : EndRead} {api : Api Val D O (Matrix (Fin 6) (Fin 6) ℝ) I} (hapi : ChecksCovariances api)
    {cfg : Cfg} {o : O} {s : Sys Val D O} (h : NodeReach er api cfg o s) (hc : cfg.reg = true)
    (r t : Fin 3 → ℝ) (l : List (Pt ℝ × Pt ℝ)) {v : ℝ} (hv : 0 < v) {m : Mat6 ℝ}
    (hm : llsIid (pointLin r t) v l = some m ∨ llsIid (planeLin r t) v l = some m)
    {X : Iso ℝ} (hX : Rigid X) (frame : String) (T : Iso ℝ) (stamp : Int) (M : Mat6 ℝ)
    (hM : ∀ i j, (refinedTransform X (transformAdjoint X) frame T (fun i j => some (m i j)) stamp).covariance i j = some (M i j))
    (msg : RegMsg D (Matrix (Fin 6) (Fin 6) ℝ)) (hmsg : reorderCovariance (flat M) 3 = .ok msg.cov) :
    ∃ s', nodeStep er api cfg (.reg msg) s = some (.throws, s') ∧ s'.be.isam.gm.factors = s.be.isam.gm.factors :=
  C18_fails_every_registration hapi h hc hX frame T (C66_lls_definite_partial r t l hv m hm) stamp M hM msg hmsg

/-- **C18, what holds.** A message that is accepted has a covariance that is not positive definite. -/
theorem C18_accepted_indefinite_partial {er : EndRead} {api : Api Val D O (Matrix (Fin 6) (Fin 6) ℝ) I} (hapi : ChecksCovariances api)
    {cfg : Cfg} {o : O} {s s' : Sys Val D O} (h : NodeReach er api cfg o s) (msg : RegMsg D (Matrix (Fin 6) (Fin 6) ℝ))
    (hr : nodeStep er api cfg (.reg msg) s = some (.ok (), s')) : ¬ msg.cov.PosDef := by
  obtain ⟨k, -, -, hv, -⟩ := C18_accepted_partial h msg hr
  intro hp
  rw [(hapi _).2 ((C42_default _).2 hp)] at hv
  cases hv

/-! ### A concrete case -/

open Classical in
/-- The operations of `demoApi`, with covariances of six rows and columns. -/
noncomputable def chainApi : Api Int Int Unit (Matrix (Fin 6) (Fin 6) ℝ) Unit where
  opt := demoApi.opt
  changed := demoApi.changed
  marginal := demoApi.marginal
  compose := demoApi.compose
  zeroBias := demoApi.zeroBias
  validCov c := decide (isValidCovariance c 0 = .ok true)
  zeroSigma _ := false
  preintegrate := demoApi.preintegrate
  predict := demoApi.predict
  nan := demoApi.nan
  s2s := demoApi.s2s
  velocity := demoApi.velocity
  calibrate := demoApi.calibrate
  obs := demoApi.obs
  pressure := demoApi.pressure
  height := demoApi.height
  prior := demoApi.prior
  zero := demoApi.zero

theorem chainApi_checks : ChecksCovariances chainApi := fun _ => decide_eq_true_iff

-- a reachable state, a lidar that is mounted turned, and the identity as covariance
example (stamp : Int) (t : Int) : ∃ msg : RegMsg Int (Matrix (Fin 6) (Fin 6) ℝ),
    msg.stamp = stamp ∧ ∃ s', nodeStep .nodeCount chainApi demoCfg (.reg msg) { be := demoInit } = some (.throws, s') ∧
      s'.be.isam.gm.factors = demoInit.isam.gm.factors := by
  let X : Iso ℝ := ⟨!![0, -1, 0; 1, 0, 0; 0, 0, 1], ![1, 2, 3]⟩
  have hX : Rigid X := by
    constructor
    · ext i j
      fin_cases i <;> fin_cases j <;> simp [X, Matrix.mul_apply, Fin.sum_univ_three]
    · simp [X, Matrix.det_fin_three]
  obtain ⟨M, hM, -, hd⟩ := C99_valid hX "body" ⟨1, ![t, 0, 0]⟩ 1 stamp
  obtain ⟨c, hc⟩ : ∃ c, reorderCovariance (flat M) 3 = .ok c :=
    ⟨_, reorder_eq (n := 6) (b := 3) _ (by decide) (by decide)⟩
  refine ⟨⟨stamp, t, c⟩, rfl, ?_⟩
  exact C18_fails_every_registration chainApi_checks (NodeReach.init (api := chainApi) (o := ()) demoInit_ok) rfl hX "body"
    ⟨1, ![t, 0, 0]⟩ Matrix.PosDef.one stamp M hM ⟨stamp, t, c⟩ hc

-- the least squares covariance of three correspondences
example (stamp : Int) (t : Int) : ∃ msg : RegMsg Int (Matrix (Fin 6) (Fin 6) ℝ),
    msg.stamp = stamp ∧ ∃ s', nodeStep .nodeCount chainApi demoCfg (.reg msg) { be := demoInit } = some (.throws, s') ∧
      s'.be.isam.gm.factors = demoInit.isam.gm.factors := by
  have hX : Rigid (⟨1, ![1, 2, 3]⟩ : Iso ℝ) := ⟨by simp, by simp⟩
  obtain ⟨m, hm, -⟩ := C66_lls (M := pointLin ![1, 0, 0] ![0, 2, 0]) threePoints (threePoints_det _ _) 3
  obtain ⟨M, hM, -, -⟩ := C99_valid hX "body" ⟨1, ![t, 0, 0]⟩ m stamp
  obtain ⟨c, hc⟩ : ∃ c, reorderCovariance (flat M) 3 = .ok c := ⟨_, reorder_eq (n := 6) (b := 3) _ (by decide) (by decide)⟩
  refine ⟨⟨stamp, t, c⟩, rfl, ?_⟩
  exact C18_fails_least_squares chainApi_checks (NodeReach.init (api := chainApi) (o := ()) demoInit_ok) rfl ![1, 0, 0] ![0, 2, 0]
    threePoints (by norm_num) (.inl hm) hX "body" ⟨1, ![t, 0, 0]⟩ stamp M hM ⟨stamp, t, c⟩ hc

end BackEnd

end Serpent
