import Verif.Props.FrontEndFailures
import Verif.Props.MotionState

/-!
# C132 with the check of the preintegration parameters

The front end's model (C132) leaves open which covariances are accepted; here it is the check of `update_preintegration_params`
(C140).
-/

namespace Serpent

namespace FrontEnd

open Utils Motion

variable {Q : Type} [DecidableEq Q] {zeroQ : Q} {slerp : ℝ → Q → Q → Q}

/-- The callback of the biases of the state `t` checks the covariances with `update_preintegration_params` (frontend.cpp:305-311),
for the parameters `imu/gravity` and `imu/noise/integration`. -/
def ChecksParams (gravity integration : Option ℝ) (cfg : Cfg (ImuData ℝ Q) ℝ) : Prop :=
  ∀ m, cfg.validImu m = true ↔ ∀ acc gyro, (updateParams (newParams gravity integration acc gyro) (Matrix.of m.data.linearAccelerationCov)
    (Matrix.of m.data.angularVelocityCov)).1 = .ok ()

theorem gravity_ne_zero (gravity integration : Option ℝ) (acc gyro : Matrix (Fin 3) (Fin 3) ℝ) :
    (newParams gravity integration acc gyro).gravity ≠ 0 ↔ gravity ≠ some 0 := by
  unfold newParams
  dsimp only
  constructor
  · rintro h rfl
    refine h ?_
    funext i; fin_cases i <;> simp
  · intro h e
    have := congrFun e 2
    cases gravity with
    | none => simp at this
    | some x => exact h (congrArg some (by simpa using this))

omit [DecidableEq Q] in
theorem checksParams_iff {gravity integration : Option ℝ} {cfg : Cfg (ImuData ℝ Q) ℝ} (hc : ChecksParams gravity integration cfg)
    (m : Stamped (ImuData ℝ Q)) : cfg.validImu m = true ↔ (gravity ≠ some 0 ∧ integration ≠ some 0) ∧
      Matrix.PosDef (Matrix.of m.data.linearAccelerationCov) ∧
      Matrix.PosDef (Matrix.of m.data.angularVelocityCov) := by
  rw [hc m]
  have : ∀ acc gyro, (updateParams (newParams gravity integration acc gyro) (Matrix.of m.data.linearAccelerationCov)
      (Matrix.of m.data.angularVelocityCov)).1 = .ok () ↔ (gravity ≠ some 0 ∧ integration ≠ some 0) ∧
      Matrix.PosDef (Matrix.of m.data.linearAccelerationCov) ∧
      Matrix.PosDef (Matrix.of m.data.angularVelocityCov) := by
    intro acc gyro
    rw [(C140_update _ _ _).1, gravity_ne_zero]
    have e3 : (newParams gravity integration acc gyro).integrationCov = isotropic integration := rfl
    rw [e3, posDef_isotropic]
    tauto
  exact ⟨fun h => (this 0 0).1 (h 0 0), fun h a g => (this a g).2 h⟩

open Classical in
/-- C132. Receiving the biases of state `t` ends with an exception exactly if no IMU measurement from `t` on has been received, or gravity
or the integration noise is configured as zero, or a covariance of the nearer of the two measurements around `t` is not positive
definite. -/
theorem C132_covariances (gravity integration : Option ℝ) (cfg : Cfg (ImuData ℝ Q) ℝ) (hcfg : cfg.interp = interpolateImu zeroQ slerp)
    (hc : ChecksParams gravity integration cfg) (s : FE (ImuData ℝ Q) ℝ) (hr : Reach cfg s) {t : Int} (ht : t ∈ s.ghost.states)
    (hb : s.biasStamp < t) :
    (optimisedA cfg t s).1 ≠ .ub ∧
    ((optimisedA cfg t s).1 = .throws ↔ (∀ x ∈ s.ghost.imu, x.stamp < t) ∨
      ∃ before a b after, s.ghost.imu = before ++ a :: b :: after ∧ a.stamp ≤ t ∧ t ≤ b.stamp ∧
        (gravity = some 0 ∨ integration = some 0 ∨
          ¬ Matrix.PosDef (Matrix.of (nearer a b t).data.linearAccelerationCov) ∨
          ¬ Matrix.PosDef (Matrix.of (nearer a b t).data.angularVelocityCov))) := by
  let valid : (Fin 3 → Fin 3 → ℝ) → (Fin 3 → Fin 3 → ℝ) → Bool := fun a g =>
    decide ((gravity ≠ some 0 ∧ integration ≠ some 0) ∧ Matrix.PosDef (Matrix.of a) ∧ Matrix.PosDef (Matrix.of g))
  have hv : ∀ m, cfg.validImu m = valid m.data.linearAccelerationCov m.data.angularVelocityCov := by
    intro m
    rw [Bool.eq_iff_iff, checksParams_iff hc m]
    exact (decide_eq_true_iff).symm
  obtain ⟨h1, h2⟩ := optimisedA_fails cfg hcfg hv s hr ht hb
  refine ⟨h1, h2.trans (or_congr_right ?_)⟩
  unfold InvalidAt
  refine exists_congr fun p => exists_congr fun a => exists_congr fun b => exists_congr fun q =>
    and_congr_right fun _ => and_congr_right fun _ => and_congr_right fun _ => ?_
  show decide _ = false ↔ _
  rw [decide_eq_false_iff_not]
  tauto

/-- C132. If the covariances of the measurements are overwritten (`imu/noise/overwrite`) and none of the noise parameters and gravity
is zero, then receiving biases fails only if they are earlier than the measurements. -/
theorem C132_overwrite {gravity integration a g : Option ℝ} (hg : gravity ≠ some 0) (hi : integration ≠ some 0) (ha : a ≠ some 0)
    (hg' : g ≠ some 0) (cfg : Cfg (ImuData ℝ Q) ℝ) (hcfg : cfg.interp = interpolateImu zeroQ slerp)
    (hc : ChecksParams gravity integration cfg) (s : FE (ImuData ℝ Q) ℝ) (hr : Reach cfg s)
    (hover : ∀ x ∈ s.ghost.imu, Matrix.of x.data.linearAccelerationCov = isotropic a ∧ Matrix.of x.data.angularVelocityCov = isotropic g)
    {t : Int} (ht : t ∈ s.ghost.states) (hb : s.biasStamp < t) :
    (optimisedA cfg t s).1 ≠ .ub ∧ ((optimisedA cfg t s).1 = .throws ↔ ∀ x ∈ s.ghost.imu, x.stamp < t) := by
  obtain ⟨h1, h2⟩ := C132_covariances gravity integration cfg hcfg hc s hr ht hb
  refine ⟨h1, h2.trans ⟨?_, .inl⟩⟩
  rintro (h | ⟨p, x, y, q, e, -, -, h⟩)
  · exact h
  · have hx := hover x (by rw [e]; simp)
    have hy := hover y (by rw [e]; simp)
    have hn : Matrix.of (nearer x y t).data.linearAccelerationCov = isotropic a ∧
        Matrix.of (nearer x y t).data.angularVelocityCov = isotropic g := by
      unfold nearer
      split
      · exact hx
      · exact hy
    rw [hn.1, hn.2] at h
    rcases h with h | h | h | h
    · exact absurd h hg
    · exact absurd h hi
    · exact absurd ((posDef_isotropic a).2 ha) h
    · exact absurd ((posDef_isotropic g).2 hg') h

/-! ### A run -/

open Classical in
/-- The run of `failStart` with real numbers and the check of the parameters; the noises are overwritten, gravity has its default. -/
noncomputable def chainCfg : Cfg (ImuData ℝ Unit) ℝ :=
  { stereo := true, onlyGraphFrames := true, baro := true, interp := interpolateImu () (fun _ _ _ => ()),
    validImu := fun m => decide (∀ acc gyro, (updateParams (newParams none none acc gyro) (Matrix.of m.data.linearAccelerationCov)
      (Matrix.of m.data.angularVelocityCov)).1 = .ok ()) }

noncomputable def chainImu (t : Int) : Ev (ImuData ℝ Unit) ℝ :=
  .imu ⟨t * 1000, ⟨(), fun _ => 0, fun _ => 0, fun _ _ => 0, isotropic (some 3), isotropic (some 2), "imu"⟩⟩

noncomputable def chainStart : List (Ev (ImuData ℝ Unit) ℝ) :=
  [.barometer { stamp := 90 * 1000, frame := "b", pressure := 10, variance := 1 }, chainImu 100, chainImu 110,
    .cloud { usec := 111, sweep := 5000 }, .stereo 112345, chainImu 120, .cloud { usec := 121, sweep := 5000 }, .go, .go, .go]

open Classical in
-- the biases of the first state are accepted
example : ∃ s, Reach chainCfg s ∧ (112000 : Int) ∈ s.ghost.states ∧ (optimisedA chainCfg 112000 s).1 = .ok () := by
  have h : (runEvs chainCfg chainStart {}).isSome = true := rfl
  obtain ⟨s, hs⟩ := Option.isSome_iff_exists.1 h
  have hr := reach_run chainCfg chainStart {} s .init hs
  have h1 : (runEvs chainCfg chainStart {}).map (fun s => (s.ghost.states, s.biasStamp)) = some ([112000], 0) := rfl
  have h2 : (runEvs chainCfg chainStart {}).map (fun s => s.ghost.imu.map fun x => (x.stamp, Matrix.of x.data.linearAccelerationCov,
      Matrix.of x.data.angularVelocityCov)) = some [((100000 : Int), isotropic (some 2), isotropic (some 3)),
        (110000, isotropic (some 2), isotropic (some 3)), (120000, isotropic (some 2), isotropic (some 3))] := rfl
  rw [hs, Option.map_some, Option.some.injEq, Prod.mk.injEq] at h1
  rw [hs, Option.map_some, Option.some.injEq] at h2
  have hm : (112000 : Int) ∈ s.ghost.states := by rw [h1.1]; simp
  have hover : ∀ x ∈ s.ghost.imu, Matrix.of x.data.linearAccelerationCov = isotropic (some 2) ∧
      Matrix.of x.data.angularVelocityCov = isotropic (some 3) := by
    intro x hx
    have := List.mem_map_of_mem (f := fun x => (x.stamp, Matrix.of x.data.linearAccelerationCov, Matrix.of x.data.angularVelocityCov)) hx
    rw [h2] at this
    simp only [List.mem_cons, List.not_mem_nil, or_false, Prod.mk.injEq] at this
    rcases this with ⟨-, e1, e2⟩ | ⟨-, e1, e2⟩ | ⟨-, e1, e2⟩ <;> exact ⟨e1, e2⟩
  obtain ⟨n1, n2⟩ := C132_overwrite (zeroQ := ()) (slerp := fun _ _ _ => ()) (gravity := none) (integration := none) (a := some 2) (g := some 3) (by simp) (by simp) (by simp)
    (by simp) chainCfg rfl (fun _ => decide_eq_true_iff) s hr hover hm (by rw [h1.2]; norm_num)
  refine ⟨s, hr, hm, ?_⟩
  cases ho : (optimisedA chainCfg 112000 s).1 with
  | ok u => rfl
  | ub => exact absurd ho n1
  | throws =>
    exfalso
    obtain ⟨x, hx, ex⟩ : ∃ x ∈ s.ghost.imu, x.stamp = 120000 := by
      have : ((120000 : Int), isotropic (some 2), isotropic (some 3)) ∈ s.ghost.imu.map
          fun x => (x.stamp, Matrix.of x.data.linearAccelerationCov, Matrix.of x.data.angularVelocityCov) := by rw [h2]; simp
      obtain ⟨x, hx, e⟩ := List.mem_map.1 this
      exact ⟨x, hx, congrArg Prod.fst e⟩
    have := n2.1 ho x hx
    omega

end FrontEnd

end Serpent
