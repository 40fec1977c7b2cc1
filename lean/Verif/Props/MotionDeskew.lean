import Verif.Spec.Motion
import Verif.Lemmas.EigenRos
import Verif.Props.EigenGeometry
import Verif.Props.EigenRosMessages
import Verif.Props.PclDeskew
import Verif.Props.Utilities
import Verif.Props.BodyFrames

/-!
# C133, C134: the motion that is used for deskewing, and the guess for the registration
-/

namespace Serpent

namespace Motion

open EigenExt EigenRos Matrix Utils

theorem isoOfMatrix4_eq (R : Matrix (Fin 3) (Fin 3) ℝ) (t : Fin 3 → ℝ) : isoOfMatrix4 (matrix4 R t) = ⟨R, t⟩ := by
  ext i j
  · fin_cases i <;> fin_cases j <;> rfl
  · fin_cases i <;> rfl

theorem toEigen_eq (P : Pose3) : toEigen P = isoOf P := isoOfMatrix4_eq _ _

theorem statePose_eq (x : NavState) : statePose x = bodyPose x := isoOfMatrix4_eq _ _

/-- The motion of the sensor exists and is unique. -/
theorem sensorMotion_iff {A X : Iso ℝ} (hA : Rigid A) (hX : Rigid X) (B L : Iso ℝ) :
    IsSensorMotion A B X L ↔ L = X⁻¹ * (A⁻¹ * B) * X := by
  unfold IsSensorMotion
  constructor
  · intro h
    have h' : (A * X)⁻¹ * (A * X * L) = (A * X)⁻¹ * (B * X) := congrArg _ h
    rw [← Iso.mul_assoc, (hA.mul hX).inv_mul, Iso.one_mul, hA.mul_inv_rev hX] at h'
    rw [h']
    simp only [Iso.mul_assoc]
  · rintro rfl
    rw [show A * X * (X⁻¹ * (A⁻¹ * B) * X) = A * (X * X⁻¹) * (A⁻¹ * B * X) by simp only [Iso.mul_assoc], hX.mul_inv, Iso.mul_one,
      ← Iso.mul_assoc, ← Iso.mul_assoc, hA.mul_inv, Iso.one_mul]

/-! ### C133: the skew transform -/

theorem skew_eq {f : Frames} {X : Iso ℝ} (h : Mounted f "lidar" X) (translation rotation : Bool) (first last : NavState) :
    skewTransform f translation rotation first last =
      .ok ⟨if rotation then (X * ((bodyPose first)⁻¹ * bodyPose last) * X⁻¹).R else 1,
        if translation then (X * ((bodyPose first)⁻¹ * bodyPose last) * X⁻¹).t else ![0, 0, 0]⟩ := by
  unfold skewTransform
  rw [h.bodyTo, Outcome.bind_ok, statePose_eq, statePose_eq]
  rfl

/-- C133. The skew transform that the points are corrected with is the motion of the lidar during the sweep exactly if the motion of
the body commutes with the mounting applied twice. -/
theorem C133_skew_iff {f : Frames} {X : Iso ℝ} (h : Mounted f "lidar" X) (first last : NavState) (hf : Rigid (bodyPose first)) :
    ∃ S, skewTransform f true true first last = .ok S ∧
      (IsSensorMotion (bodyPose first) (bodyPose last) X S ↔
        X * X * ((bodyPose first)⁻¹ * bodyPose last) = (bodyPose first)⁻¹ * bodyPose last * (X * X)) := by
  refine ⟨X * ((bodyPose first)⁻¹ * bodyPose last) * X⁻¹, by rw [skew_eq h]; rfl, ?_⟩
  set T := (bodyPose first)⁻¹ * bodyPose last with hT
  have hX := h.rigid
  rw [sensorMotion_iff hf hX, ← hT]
  constructor
  · intro e
    have e1 : X * (X * T * X⁻¹) * X = X * (X⁻¹ * T * X) * X := by rw [e]
    rw [show X * (X * T * X⁻¹) * X = X * X * T * (X⁻¹ * X) by simp only [Iso.mul_assoc], hX.inv_mul, Iso.mul_one,
      show X * (X⁻¹ * T * X) * X = X * X⁻¹ * (T * (X * X)) by simp only [Iso.mul_assoc], hX.mul_inv, Iso.one_mul] at e1
    exact e1
  · intro e
    have e1 : X⁻¹ * (X * X * T) * X⁻¹ = X⁻¹ * (T * (X * X)) * X⁻¹ := by rw [e]
    rw [show X⁻¹ * (X * X * T) * X⁻¹ = X⁻¹ * X * (X * T * X⁻¹) by simp only [Iso.mul_assoc], hX.inv_mul, Iso.one_mul,
      show X⁻¹ * (T * (X * X)) * X⁻¹ = X⁻¹ * T * X * (X * X⁻¹) by simp only [Iso.mul_assoc], hX.mul_inv, Iso.mul_one] at e1
    exact e1

/-- C133, for a lidar whose frame is the body's, or is turned by half a turn about an axis through the origin of the body: the skew
transform is the motion of the lidar, for every motion. Missing: other mountings, for which this is false for some motions
(`C133_skew_iff`, `C133_fails_turned`, `C133_fails_lever_arm`). -/
theorem C133_skew_partial {f : Frames} {X : Iso ℝ} (h : Mounted f "lidar" X) (hX : X * X = 1) (first last : NavState)
    (hf : Rigid (bodyPose first)) :
    ∃ S, skewTransform f true true first last = .ok S ∧ IsSensorMotion (bodyPose first) (bodyPose last) X S := by
  obtain ⟨S, e, hS⟩ := C133_skew_iff h first last hf
  exact ⟨S, e, hS.2 (by rw [hX, Iso.one_mul, Iso.mul_one])⟩

/-- C133. The options: without `mdc/rotation` the skew does not turn, without `mdc/translation` it does not move; the other part is
the same as with both. -/
theorem C133_options {f : Frames} {X : Iso ℝ} (h : Mounted f "lidar" X) (translation rotation : Bool) (first last : NavState) :
    ∃ S S', skewTransform f true true first last = .ok S ∧ skewTransform f translation rotation first last = .ok S' ∧
      S'.R = (if rotation then S.R else 1) ∧ S'.t = (if translation then S.t else 0) := by
  refine ⟨_, _, skew_eq h true true first last, skew_eq h translation rotation first last, rfl, ?_⟩
  cases translation
  · funext i; fin_cases i <;> rfl
  · rfl

/-- C133. With both options off the cloud only gets the time of the new state. -/
theorem C133_off {f : Frames} {X : Iso ℝ} (h : Mounted f "lidar" X) (cd : Pcl.Codec ℝ) (first last : NavState) (sweep t : Int)
    (cloud : Pcl.Cloud) :
    deskewedCloud cd f false false first last sweep t cloud =
      .ok { cloud with header := { cloud.header with stamp := (t / 1000).toNat } } := by
  unfold deskewedCloud
  rw [skew_eq h, Outcome.bind_ok]
  have : (⟨if false = true then (X * ((bodyPose first)⁻¹ * bodyPose last) * X⁻¹).R else 1,
      if false = true then (X * ((bodyPose first)⁻¹ * bodyPose last) * X⁻¹).t else ![0, 0, 0]⟩ : Iso ℝ) = 1 := by
    ext i
    · rfl
    · fin_cases i <;> rfl
  rw [this]
  exact Pcl.C61_no_motion Pcl.approxIdentity_one _ _ _

/-- A lidar turned by 90 degrees about z. -/
def turned : Iso ℝ := ⟨!![0, -1, 0; 1, 0, 0; 0, 0, 1], 0⟩

theorem turned_rigid : Rigid turned := by
  constructor
  · ext i j
    fin_cases i <;> fin_cases j <;> simp [turned, Matrix.mul_apply, Fin.sum_univ_three]
  · simp [turned, det_fin_three]

/-- **C133 fails for a turned lidar.** For a lidar turned by 90 degrees about z on a body that moves forward by `d` without turning,
the skew transform moves by `d` to the left, while the lidar moves by `d` to its right: the points are moved in the wrong direction. -/
theorem C133_fails_turned {f : Frames} (h : Mounted f "lidar" turned) (d : ℝ) (hd : d ≠ 0) (v : Fin 3 → ℝ) :
    skewTransform f true true ⟨1, 0, v⟩ ⟨1, ![d, 0, 0], v⟩ = .ok ⟨1, ![0, d, 0]⟩ ∧
    IsSensorMotion (bodyPose ⟨1, 0, v⟩) (bodyPose ⟨1, ![d, 0, 0], v⟩) turned ⟨1, ![0, -d, 0]⟩ ∧
    ¬ IsSensorMotion (bodyPose ⟨1, 0, v⟩) (bodyPose ⟨1, ![d, 0, 0], v⟩) turned ⟨1, ![0, d, 0]⟩ := by
  have e1 : bodyPose ⟨1, 0, v⟩ = 1 := rfl
  have good : IsSensorMotion (bodyPose ⟨1, 0, v⟩) (bodyPose ⟨1, ![d, 0, 0], v⟩) turned ⟨1, ![0, -d, 0]⟩ := by
    unfold IsSensorMotion
    rw [e1, Iso.one_mul]
    ext i
    · simp [Iso.mul_R, bodyPose]
    · fin_cases i <;> simp [Iso.mul_t, bodyPose, turned]
  refine ⟨?_, good, ?_⟩
  · rw [skew_eq h, e1, Iso.one_inv, Iso.one_mul]
    refine congrArg Outcome.ok ?_
    have e2 : bodyPose ⟨1, ![d, 0, 0], v⟩ = ⟨1, ![d, 0, 0]⟩ := rfl
    simp only [if_true]
    rw [e2]
    ext i j
    · have := turned_rigid.mul_inv
      have : (turned * turned⁻¹).R = (1 : Iso ℝ).R := by rw [this]
      rw [Iso.mul_R] at this
      show ((turned.R * (1 : Matrix (Fin 3) (Fin 3) ℝ)) * (turned⁻¹).R) i j = (1 : Matrix (Fin 3) (Fin 3) ℝ) i j
      rw [Matrix.mul_one, this]; rfl
    · fin_cases i <;> simp [Iso.mul_t, Iso.mul_R, Iso.inv_t, turned]
  · intro bad
    rw [sensorMotion_iff (by rw [e1]; exact Rigid.one) turned_rigid] at good bad
    have := congrArg (fun T : Iso ℝ => T.t 1) (good.trans bad.symm)
    simp at this
    exact hd (by linarith)

/-- **C133 fails for a displaced lidar.** For a lidar that is mounted at `c` without being turned, the skew transform turns as the
lidar does, but it moves by the motion of the lidar plus twice the displacement of the mounting by the rotation: it is the motion of
the lidar exactly if the rotation keeps the mounting where it is. -/
theorem C133_fails_lever_arm {f : Frames} {c : Fin 3 → ℝ} (h : Mounted f "lidar" ⟨1, c⟩) (first last : NavState)
    (hf : Rigid (bodyPose first)) :
    ∃ S L, skewTransform f true true first last = .ok S ∧ IsSensorMotion (bodyPose first) (bodyPose last) ⟨1, c⟩ L ∧
      S.R = L.R ∧ S.t = L.t + 2 • (c - L.R *ᵥ c) ∧ (S = L ↔ L.R *ᵥ c = c) := by
  set X : Iso ℝ := ⟨1, c⟩ with hX
  set T := (bodyPose first)⁻¹ * bodyPose last with hT
  have r : X.R = 1 := rfl
  have ri : X⁻¹.R = 1 := by rw [Iso.inv_R, r, transpose_one]
  have ti : X⁻¹.t = -c := by rw [Iso.inv_t, r, transpose_one, one_mulVec]
  have rs : (X * T * X⁻¹).R = T.R := by rw [Iso.mul_R, Iso.mul_R, r, ri, Matrix.one_mul, Matrix.mul_one]
  have rl : (X⁻¹ * T * X).R = T.R := by rw [Iso.mul_R, Iso.mul_R, r, ri, Matrix.one_mul, Matrix.mul_one]
  have st : (X * T * X⁻¹).t = T.t + c - T.R *ᵥ c := by
    rw [Iso.mul_t, Iso.mul_R, Iso.mul_t, r, ti, Matrix.one_mul, one_mulVec, mulVec_neg]
    have : X.t = c := rfl
    rw [this]
    abel
  have lt : (X⁻¹ * T * X).t = T.t - c + T.R *ᵥ c := by
    rw [Iso.mul_t, Iso.mul_R, Iso.mul_t, ri, ti, Matrix.one_mul, one_mulVec]
    have : X.t = c := rfl
    rw [this]
    abel
  refine ⟨X * T * X⁻¹, X⁻¹ * T * X, by rw [skew_eq h]; rfl, (sensorMotion_iff hf h.rigid _ _).2 (by rw [hT]), by rw [rs, rl], ?_, ?_⟩
  · rw [st, lt, rl, two_nsmul]
    abel
  · rw [rl]
    constructor
    · intro e
      have : (X * T * X⁻¹).t = (X⁻¹ * T * X).t := by rw [e]
      rw [st, lt] at this
      funext i
      have := congrFun this i
      simp only [Pi.add_apply, Pi.sub_apply] at this
      linarith
    · intro e
      ext1
      · rw [rs, rl]
      · rw [st, lt, e]; abel

/-- C133. The deskewed cloud. When the lidar moves during the sweep from its pose at the start to its pose at the end as the skew
says (`C133_skew_iff`), at constant rates, and its pose at the time `τ` after the stamp is `W τ`, then each point of the result is, seen
from the pose at the time of the new state, where the measured point was seen from the pose at the time of its measurement. Missing:
mountings for which the skew is not the motion of the lidar, and what is missing in `C61_deskew_partial`. -/
theorem C133_deskewed_partial {f : Frames} {X : Iso ℝ} (hm : Mounted f "lidar" X) {cd : Pcl.Codec ℝ} {rep : Pcl.FT → ℝ → Prop}
    (hl : cd.Lawful rep) {src : Pcl.Cloud} {fx fy fz ft : Pcl.PField} {tx ty tz tt : Pcl.FT} {p : Nat → Fin 3 → ℝ} {τ : Nat → ℝ}
    {sweep t : Int} {a : Fin 3 → ℝ} {θ : ℝ} {d : Fin 3 → ℝ} {first last : NavState} {W : ℝ → Iso ℝ} (hw : Pcl.WellFormed src)
    (h : Pcl.Timed cd rep src fx fy fz ft tx ty tz tt p τ) (hf : Rigid (bodyPose first))
    (hc : X * X * ((bodyPose first)⁻¹ * bodyPose last) = (bodyPose first)⁻¹ * bodyPose last * (X * X))
    (hW : ∀ σ, W σ = bodyPose first * X * Pcl.poseAt a θ d ((sweep : ℝ) / 1000000000) σ)
    (hend : W ((sweep : ℝ) / 1000000000) = bodyPose last * X)
    (hs : 0 < sweep) (ha : ∑ i, a i ^ 2 = 1) (h0 : 0 ≤ θ) (h1 : θ < Real.pi) (hθ : θ = 0 ∨ Real.cos (θ / 2) < 1 - epsilon)
    (hid : ¬ Pcl.ApproxIdentity ⟨Pcl.rotationAbout a θ, d⟩)
    (hstamp : (src.header.stamp : Int) * 1000 ≤ t) (h64 : t / 1000 < 2 ^ 64) :
    ∃ c', deskewedCloud cd f true true first last sweep t src = .ok c' ∧ Pcl.WellFormed c' ∧
      { c' with data := src.data } = { src with header := { src.header with stamp := (t / 1000).toNat } } ∧
      ∀ i < Pcl.count src, Pcl.value cd tt c' ft i = 0 ∧
        ∃ p', (W ((((t / 1000).toNat : ℝ) - src.header.stamp) / 10 ^ 6)).apply p' = (W (τ i)).apply (p i) ∧
          Pcl.Stored cd .float64 tx (p' 0) (Pcl.value cd tx c' fx i) ∧ Pcl.Stored cd .float64 ty (p' 1) (Pcl.value cd ty c' fy i) ∧
          Pcl.Stored cd .float64 tz (p' 2) (Pcl.value cd tz c' fz i) := by
  obtain ⟨S, e, hS⟩ := C133_skew_iff hm first last hf
  have hS := hS.2 hc
  have hdt : (0 : ℝ) < (sweep : ℝ) / 1000000000 := by
    have : (0 : ℝ) < (sweep : ℝ) := by exact_mod_cast hs
    positivity
  have hSeq : S = ⟨Pcl.rotationAbout a θ, d⟩ := by
    have e1 : IsSensorMotion (bodyPose first) (bodyPose last) X (Pcl.poseAt a θ d ((sweep : ℝ) / 1000000000) ((sweep : ℝ) / 1000000000)) := by
      unfold IsSensorMotion
      rw [← hW, hend]
    have e2 := (Pcl.C61_poses (skew := ⟨Pcl.rotationAbout a θ, d⟩) hdt (a := a) (θ := θ) rfl).1
    rw [e2] at e1
    rw [(sensorMotion_iff hf hm.rigid _ _).1 hS, (sensorMotion_iff hf hm.rigid _ _).1 e1]
  subst hSeq
  have hst : src.header.stamp ≤ toPcl t := by unfold toPcl; omega
  have hlt : toPcl t < 2 ^ 64 := by unfold toPcl; omega
  obtain ⟨c', r1, r2, r3, r4⟩ := Pcl.C61_deskew_partial (dt := toSec sweep) (newTime := toPcl t) hl hw h hid hdt ha rfl h0 h1 hθ hst hlt
  refine ⟨c', ?_, r2, r3, fun i hi => ?_⟩
  · unfold deskewedCloud
    rw [e, Outcome.bind_ok]
    exact r1
  · obtain ⟨q1, ⟨p', q2, q3⟩, -⟩ := r4 i hi
    refine ⟨q1, p', ?_, q3⟩
    rw [hW, hW, Iso.apply_mul (bodyPose first * X), Iso.apply_mul (bodyPose first * X)]
    exact congrArg (bodyPose first * X).apply q2

/-- C133. The states at the start and at the end of the sweep, after the first cloud: predicted from the last optimised state with
exactly the measurements that hold between the time of that state and the start of the sweep, and from there with exactly the
measurements that hold during the sweep. -/
theorem C133_states (predict : Predict) (bias : ImuBias) (world : NavState) (buffer : List Imu) (stateTime start stop : Int)
    (ho : StrictlyOrdered (buffer.map Imu.data)) (hb : 2 ≤ buffer.length) (h0 : ∀ m, buffer.head? = some m → m.timestamp ≤ stateTime)
    (h1 : stateTime < start) (h2 : start < stop) (hne : ∀ m ∈ buffer, m.timestamp ≠ start ∧ m.timestamp ≠ stop) :
    sweepStates predict true true bias world buffer stateTime start stop =
      .ok (predict bias world (heldDuring buffer stateTime start),
        predict bias (predict bias world (heldDuring buffer stateTime start)) (heldDuring buffer start stop)) := by
  have seg : ∀ a b : Int, a < b → stateTime ≤ a → (∀ m ∈ buffer, m.timestamp ≠ b) →
      integrated true buffer a b = .ok (heldDuring buffer a b) := by
    intro a b hab hs hn
    unfold integrated
    rw [C28_strict_partial _ _ _ ho (by rw [List.length_map]; exact hb) (by
      intro m hm
      rw [List.head?_map, Option.map_eq_some_iff] at hm
      obtain ⟨x, hx, rfl⟩ := hm
      have := h0 x hx
      show x.timestamp ≤ a
      omega) hab (by
      intro m hm
      rw [List.mem_map] at hm
      obtain ⟨x, hx, rfl⟩ := hm
      exact hn x hx), Outcome.bind_ok]
    rfl
  unfold sweepStates
  rw [if_pos rfl, seg _ _ h1 le_rfl (fun m hm => (hne m hm).1), Outcome.bind_ok, Outcome.bind_ok,
    seg _ _ h2 h1.le (fun m hm => (hne m hm).2), Outcome.bind_ok]

/-- **C133 fails for the first cloud.** The state at the start of the first sweep is taken to be the initial state, however much later
the initial state is. -/
theorem C133_fails_first_cloud (predict : Predict) (strict : Bool) (bias : ImuBias) (world : NavState) (buffer : List Imu)
    (stateTime start stop : Int) {r : NavState × NavState}
    (h : sweepStates predict strict false bias world buffer stateTime start stop = .ok r) : r.1 = world := by
  unfold sweepStates at h
  rw [if_neg (by simp), Outcome.bind_ok] at h
  cases e : integrated strict buffer start stop with
  | ok ms =>
    rw [e, Outcome.bind_ok] at h
    rw [← Outcome.ok.inj h]
  | throws => rw [e] at h; cases h
  | ub => rw [e] at h; cases h

/-! ### C134: the guess for the registration -/

/-- C134. The transform published for the IMU is, as the registration reads it, the motion of the lidar between the two states; it
carries the time of the new state and the frame of the lidar. -/
theorem C134_guess {f : Frames} {X : Iso ℝ} (h : Mounted f "lidar" X) {id : String} (hid : BodyFrames.frameId f.frames "lidar" = .ok id)
    (previous current : Pose3) (hp : Rigid (isoOf previous)) (hc : Rigid (isoOf current)) (t : Int) :
    ∃ m, imuGuess f previous current t = .ok m ∧ m.header.stamp = t ∧ m.header.frameId = id ++ "_i-1" ∧ m.childFrameId = id ∧
      IsSensorMotion (isoOf previous) (isoOf current) X (readGuess m) := by
  have hX := h.rigid
  have hr : Rigid (X⁻¹ * ((isoOf previous)⁻¹ * isoOf current) * X) := (hX.inv.mul (hp.inv.mul hc)).mul hX
  refine ⟨_, by unfold imuGuess; rw [h.toBody, Outcome.bind_ok, hid, Outcome.bind_ok, isoOfMatrix4_eq, isoOfMatrix4_eq], rfl, rfl, rfl, ?_⟩
  rw [sensorMotion_iff hp hX]
  have e : ∀ T : Iso ℝ, Rigid T → readGuess ⟨⟨0, t, id ++ "_i-1"⟩, id, ofPoseTransform (Pose.ofIsometry T 0)⟩ = T := by
    intro T hT
    unfold readGuess ofPoseTransform fromTransform
    dsimp only
    have := toTransform_ofIsometry hT 0
    rw [(C46_vector3 (Pose.ofIsometry T 0).position Vector3Msg.empty).2.2.2.1]
    exact this
  have e2 : changeRelativeTransformFrame ((isoOf previous)⁻¹ * isoOf current) X⁻¹ = X⁻¹ * ((isoOf previous)⁻¹ * isoOf current) * X := by
    unfold changeRelativeTransformFrame changeRelativeTransformFrame3
    rw [hX.inv_inv]
  rw [← e2] at hr ⊢
  exact e _ hr

/-- C134. What becomes of the result of an alignment: when the registration finds the motion `T` of the lidar, the back end sets the
new pose of the body so that the lidar has moved by `T` from its previous pose. -/
theorem C134_result {f : Frames} {X : Iso ℝ} (h : Mounted f "lidar" X) (previous : Pose3) {T : Iso ℝ} (hT : Rigid T) :
    ∃ m, refinedPose f T = .ok m ∧ IsSensorMotion (isoOf previous) (isoOf (poseFromRegistration previous m)) X T := by
  have hX := h.rigid
  have hr : Rigid (X * T * X⁻¹) := (hX.mul hT).mul hX.inv
  refine ⟨_, by unfold refinedPose; rw [h.bodyTo, Outcome.bind_ok], ?_⟩
  have e : isoOf (poseFromRegistration previous ⟨toPoint (changeRelativeTransformFrame T X).t,
      toQuaternion (Quat.ofMatrix (changeRelativeTransformFrame T X).R)⟩) = isoOf previous * (X * T * X⁻¹) := by
    have c : changeRelativeTransformFrame T X = X * T * X⁻¹ := rfl
    rw [c]
    unfold poseFromRegistration isoOf
    dsimp only
    rw [(C46_quaternion (Quat.ofMatrix (X * T * X⁻¹).R) QuaternionMsg.empty).2.2.2.2.1, Quat.toMatrix_ofMatrix (rotation_of_rigid hr),
      (C46_point (X * T * X⁻¹).t PointMsg.empty).2.2.2.1]
    rfl
  unfold IsSensorMotion
  rw [e]
  rw [show isoOf previous * (X * T * X⁻¹) * X = isoOf previous * X * T * (X⁻¹ * X) by simp only [Iso.mul_assoc], hX.inv_mul, Iso.mul_one]

/-- C134. When the alignment returns the guess unchanged, the back end sets exactly the pose that was predicted from the IMU. -/
theorem C134_round_trip {f : Frames} {X : Iso ℝ} (h : Mounted f "lidar" X) {id : String}
    (hid : BodyFrames.frameId f.frames "lidar" = .ok id) (previous current : Pose3) (hp : Rigid (isoOf previous))
    (hc : Rigid (isoOf current)) (t : Int) :
    ∃ m r, imuGuess f previous current t = .ok m ∧ refinedPose f (readGuess m) = .ok r ∧ poseFromRegistration previous r = current := by
  obtain ⟨m, e, -, -, -, hm⟩ := C134_guess h hid previous current hp hc t
  have hX := h.rigid
  have hg : Rigid (readGuess m) := by
    rw [(sensorMotion_iff hp hX _ _).1 hm]
    exact (hX.inv.mul (hp.inv.mul hc)).mul hX
  obtain ⟨r, er, hr⟩ := C134_result h previous hg
  refine ⟨m, r, e, er, ?_⟩
  unfold IsSensorMotion at hm hr
  have key : isoOf (poseFromRegistration previous r) = isoOf current := by
    have := hr.symm.trans hm
    have h2 := congrArg (· * X⁻¹) this
    simpa only [Iso.mul_assoc, hX.mul_inv, Iso.mul_one] using h2
  have hR := congrArg Iso.R key
  have ht := congrArg Iso.t key
  exact Pose3.ext hR ht

/-- C134. For the first state the registration reads the identity; the message has the header and the child frame of the initial
odometry. -/
theorem C134_first (msg : OdometryMsg) : readGuess (firstGuess msg) = 1 ∧ (firstGuess msg).header = msg.header ∧
    (firstGuess msg).childFrameId = msg.childFrameId := by
  refine ⟨?_, rfl, rfl⟩
  unfold readGuess firstGuess ofPoseTransform fromTransform
  dsimp only
  rw [(C46_vector3 Pose.default.position Vector3Msg.empty).2.2.2.1]
  unfold toTransform
  have : (fromQuaternion (toQuaternion Pose.default.orientation)).toMatrix = 1 := Quat.toMatrix_id
  rw [this]
  rfl

/-! ### The hypotheses are met -/

/-- A configuration: the body `base_link` with a lidar, turned by 90 degrees and displaced, and an IMU. -/
def sampleConfig : BodyFrames.Config (Iso ℝ) :=
  ⟨"base_link", none, some (.cons "lidar" ⟨some "os_lidar", none, none, none, some quarter⟩ false .nil
    (.cons "imu" ⟨none, none, none, none, some turned⟩ false .nil .nil))⟩

/-- The object for the configuration. -/
def sampleFrames : Frames where
  tf := fun _ _ _ => none
  frames :=
    { body := "base_link"
      frameIds := [("base_link", "base_link"), ("imu", "imu"), ("lidar", "os_lidar")]
      frames := [("base_link", "base_link"), ("imu", "imu"), ("os_lidar", "lidar")]
      lookedup := [("base_link", false), ("imu", false), ("lidar", false)]
      dynamic := [("base_link", false), ("imu", false), ("lidar", false)]
      aliases := [("base_link", []), ("imu", []), ("os_lidar", [])]
      bodyToFrame := [("base_link", 1), ("imu", 1 * turned), ("lidar", 1 * quarter)]
      frameToBody := [("base_link", 1), ("imu", (1 * turned)⁻¹), ("lidar", (1 * quarter)⁻¹)] }

theorem sampleFrames_lidar : Mounted sampleFrames "lidar" quarter :=
  ⟨quarter_rigid, by conv_rhs => rw [← Iso.one_mul quarter]
                     rfl, by conv_rhs => rw [← Iso.one_mul quarter]
                             rfl⟩

theorem sampleFrames_imu : Mounted sampleFrames "imu" turned :=
  ⟨turned_rigid, by conv_rhs => rw [← Iso.one_mul turned]
                    rfl, by conv_rhs => rw [← Iso.one_mul turned]
                            rfl⟩

/-- The object is the one that is built from the configuration. -/
example : BodyFrames.create sampleFrames.tf sampleConfig = .ok sampleFrames.frames := rfl

/-- A lidar in the frame of the body. -/
def plainFrames : Frames where
  tf := fun _ _ _ => none
  frames :=
    { sampleFrames.frames with
      bodyToFrame := [("base_link", 1), ("lidar", 1)]
      frameToBody := [("base_link", 1), ("lidar", 1)] }

theorem plainFrames_lidar : Mounted plainFrames "lidar" 1 := ⟨Rigid.one, rfl, by rw [Iso.one_inv]; rfl⟩

/-- `C133_skew_partial`: the body turns by 90 degrees and moves. -/
example : ∃ S, skewTransform plainFrames true true ⟨1, 0, 0⟩ ⟨quarter.R, quarter.t, 0⟩ = .ok S ∧
    IsSensorMotion (bodyPose ⟨1, 0, 0⟩) (bodyPose ⟨quarter.R, quarter.t, 0⟩) 1 S :=
  C133_skew_partial plainFrames_lidar (Iso.one_mul _) _ _ Rigid.one

/-- `C133_deskewed_partial`: the body moves by (1, 2, 3) during a sweep of half a second. -/
example : ∃ c', deskewedCloud Pcl.Ieee.realCodec plainFrames true true ⟨1, 0, 0⟩ ⟨1, ![1, 2, 3], 0⟩ 500000000 2000 Pcl.oneCloud = .ok c' := by
  have hr : Pcl.rotationAbout ![1, 0, 0] 0 = 1 := by unfold Pcl.rotationAbout; simp
  have e1 : bodyPose ⟨1, 0, 0⟩ = 1 := rfl
  obtain ⟨c', e, -⟩ := C133_deskewed_partial plainFrames_lidar (first := ⟨1, 0, 0⟩) (last := ⟨1, ![1, 2, 3], 0⟩) (sweep := 500000000)
    (t := 2000) (a := ![1, 0, 0]) (θ := 0) (d := ![1, 2, 3])
    (W := fun σ => bodyPose ⟨1, 0, 0⟩ * 1 * Pcl.poseAt ![1, 0, 0] 0 ![1, 2, 3] (((500000000 : Int) : ℝ) / 1000000000) σ)
    Pcl.Ieee.realLawful Pcl.oneCloud_wellFormed Pcl.oneCloud_timed Rigid.one (by simp only [Iso.one_mul, Iso.mul_one]) (fun _ => rfl)
    (by
      rw [e1, Iso.one_mul, Iso.one_mul, Iso.mul_one, (Pcl.C61_poses (skew := ⟨Pcl.rotationAbout ![1, 0, 0] 0, ![1, 2, 3]⟩)
        (by norm_num) rfl).1, hr]
      rfl)
    (by norm_num) (by simp [Fin.sum_univ_three]) le_rfl Real.pi_pos (.inl rfl) (by rw [hr]; exact Pcl.moved_not_identity)
    (by decide) (by decide)
  exact ⟨c', e⟩

/-- A lidar turned by 90 degrees, as in `C133_fails_turned`. -/
def turnedFrames : Frames where
  tf := fun _ _ _ => none
  frames :=
    { sampleFrames.frames with
      bodyToFrame := [("base_link", 1), ("lidar", turned)]
      frameToBody := [("base_link", 1), ("lidar", turned⁻¹)] }

theorem turnedFrames_lidar : Mounted turnedFrames "lidar" turned := ⟨turned_rigid, rfl, rfl⟩

example : skewTransform turnedFrames true true ⟨1, 0, 0⟩ ⟨1, ![2, 0, 0], 0⟩ = .ok ⟨1, ![0, 2, 0]⟩ :=
  (C133_fails_turned turnedFrames_lidar 2 (by norm_num) 0).1

/-- A lidar one metre ahead of the body, as in `C133_fails_lever_arm`; the body turns by 90 degrees, and the skew is wrong. -/
def aheadFrames : Frames where
  tf := fun _ _ _ => none
  frames :=
    { sampleFrames.frames with
      bodyToFrame := [("base_link", 1), ("lidar", ⟨1, ![1, 0, 0]⟩)]
      frameToBody := [("base_link", 1), ("lidar", ⟨1, ![1, 0, 0]⟩⁻¹)] }

theorem aheadFrames_lidar : Mounted aheadFrames "lidar" ⟨1, ![1, 0, 0]⟩ := ⟨⟨by simp, by simp⟩, rfl, rfl⟩

example : ∃ S L, skewTransform aheadFrames true true ⟨1, 0, 0⟩ ⟨turned.R, 0, 0⟩ = .ok S ∧
    IsSensorMotion (bodyPose ⟨1, 0, 0⟩) (bodyPose ⟨turned.R, 0, 0⟩) ⟨1, ![1, 0, 0]⟩ L ∧ S ≠ L := by
  obtain ⟨S, L, h1, h2, h3, -, h5⟩ := C133_fails_lever_arm aheadFrames_lidar ⟨1, 0, 0⟩ ⟨turned.R, 0, 0⟩ Rigid.one
  refine ⟨S, L, h1, h2, fun e => ?_⟩
  have hL : L.R = turned.R := by
    have := (sensorMotion_iff Rigid.one aheadFrames_lidar.rigid _ _).1 h2
    rw [this]
    simp [Iso.mul_R, Iso.inv_R, Iso.one_R, bodyPose]
  have := h5.1 e
  rw [hL] at this
  have := congrFun this 0
  simp [turned] at this

/-- Two measurements and three times, as in `C133_states`. -/
def sampleImu (t : Int) : Imu := ⟨Quat.id, ![0, 0, 1], ![0, 0, 9], 0, 0, 0, t, "imu"⟩

example (predict : Predict) (bias : ImuBias) (world : NavState) :
    sweepStates predict true true bias world [sampleImu 0, sampleImu 10] 1 5 20 =
      .ok (predict bias world (heldDuring [sampleImu 0, sampleImu 10] 1 5),
        predict bias (predict bias world (heldDuring [sampleImu 0, sampleImu 10] 1 5)) (heldDuring [sampleImu 0, sampleImu 10] 5 20)) :=
  C133_states predict bias world _ 1 5 20 (by simp [StrictlyOrdered, Imu.data, sampleImu]) (by simp) (by simp [sampleImu]) (by norm_num)
    (by norm_num) (by simp [sampleImu])

/-- The durations: 4 ns before the sweep; 5 ns and 10 ns during it. -/
example : (heldDuring [sampleImu 0, sampleImu 10] 1 5).map (·.dt) = [4 / 1000000000] ∧
    (heldDuring [sampleImu 0, sampleImu 10] 5 20).map (·.dt) = [5 / 1000000000, 10 / 1000000000] := by
  simp [heldDuring, segments, holdTimes, Imu.data, sampleImu]

/-- `C134_round_trip` with a lidar that is turned and displaced. -/
example : ∃ m r, imuGuess sampleFrames ⟨1, 0⟩ ⟨turned.R, ![1, 2, 3]⟩ 7 = .ok m ∧ refinedPose sampleFrames (readGuess m) = .ok r ∧
    poseFromRegistration ⟨1, 0⟩ r = ⟨turned.R, ![1, 2, 3]⟩ :=
  C134_round_trip sampleFrames_lidar (id := "os_lidar") rfl ⟨1, 0⟩ ⟨turned.R, ![1, 2, 3]⟩ Rigid.one
    ⟨turned_rigid.orthogonal, turned_rigid.det⟩ 7

end Motion

end Serpent
