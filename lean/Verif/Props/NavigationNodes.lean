import Verif.Model.NavigationNodes
import Verif.Props.EigenRosMessages
import Verif.Props.EigenRosArrays
import Mathlib.Algebra.Order.Star.Real
import Mathlib.Data.List.Forall2

/-!
# C106-C109: dead reckoning from IMU messages, IMU rotation and analysis, odometry as a transform, conversions of the back end
-/

namespace Serpent

namespace EigenRos

open EigenExt Matrix

/-! ### Reading IMU messages -/

/-- The covariances of the message are 3x3 (in C++ this is part of the type). -/
def Sized (m : ImuMsg) : Prop :=
  m.orientationCov.length = 9 ∧ m.angularVelocityCov.length = 9 ∧ m.linearAccelerationCov.length = 9

theorem fromImu_ok {m : ImuMsg} (hm : Sized m) (junk : Imu) :
    ∃ imu, fromImu m junk = .ok imu ∧ imu.timestamp = m.header.stamp ∧ imu.frame = m.header.frameId ∧
      imu.orientation = fromQuaternion m.orientation ∧ imu.angularVelocity = fromVector3 m.angularVelocity ∧
      imu.linearAcceleration = fromVector3 m.linearAcceleration ∧ RowMajor m.orientationCov imu.orientationCov ∧
      RowMajor m.angularVelocityCov imu.angularVelocityCov ∧ RowMajor m.linearAccelerationCov imu.linearAccelerationCov := by
  obtain ⟨A, hA⟩ := RowMajor.exists (m := 3) (n := 3) hm.1
  obtain ⟨B, hB⟩ := RowMajor.exists (m := 3) (n := 3) hm.2.1
  obtain ⟨C, hC⟩ := RowMajor.exists (m := 3) (n := 3) hm.2.2
  refine ⟨_, by unfold fromImu fromFixedArray; rw [hA.read, Outcome.bind_ok, hB.read, Outcome.bind_ok, hC.read, Outcome.bind_ok],
    rfl, rfl, rfl, rfl, rfl, hA, hB, hC⟩

/-! ### C106: dead reckoning -/

/-- The measurements between the messages: each message is taken to hold since the message before it. -/
noncomputable def measured : List ImuMsg → List Measured
  | a :: b :: l =>
    ⟨![b.linearAcceleration.x, b.linearAcceleration.y, b.linearAcceleration.z],
      ![b.angularVelocity.x, b.angularVelocity.y, b.angularVelocity.z],
      ((b.header.stamp : ℝ) - (a.header.stamp : ℝ)) / 1000000000⟩ :: measured (b :: l)
  | _ => []

/-- The rotation of the body when the first message has the orientation `q` of the IMU and the body is turned by `X` in the frame of
the IMU; a zero quaternion stands for an unknown orientation. -/
noncomputable def startRotation (q : QuaternionMsg) (X : Matrix (Fin 3) (Fin 3) ℝ) : Matrix (Fin 3) (Fin 3) ℝ :=
  open Classical in
  if q = ⟨0, 0, 0, 0⟩ then 1 else (fromQuaternion q).toMatrix * X

/-- The orientation is a rotation or unknown. -/
def KnownOrUnknown (q : QuaternionMsg) : Prop := q = ⟨0, 0, 0, 0⟩ ∨ q.w ^ 2 + q.x ^ 2 + q.y ^ 2 + q.z ^ 2 = 1

/-- The covariance, row after row in the order of ROS, of the prediction: rotation and position in the first six rows and columns. -/
def PoseCovarianceOf (a : List ℝ) (C : Matrix (Fin 15) (Fin 15) ℝ) : Prop :=
  ∃ P : Matrix (Fin 6) (Fin 6) ℝ, RosCovariance a P ∧ ∀ i j : Fin 6, P i j = C ⟨i, by omega⟩ ⟨j, by omega⟩

/-- The covariance of the twist: the angular velocity is measured, the velocity is predicted (rows and columns 6 to 8), and they are
not correlated. -/
def TwistCovarianceOf (a : List ℝ) (gyroCov : List ℝ) (C : Matrix (Fin 15) (Fin 15) ℝ) : Prop :=
  ∃ P : Matrix (Fin 6) (Fin 6) ℝ, RosCovariance a P ∧ ∀ i j : Fin 3,
    gyroCov[3 * (i : Nat) + j]? = some (P ⟨i, by omega⟩ ⟨j, by omega⟩) ∧ P ⟨i, by omega⟩ ⟨3 + j, by omega⟩ = 0 ∧
    P ⟨3 + i, by omega⟩ ⟨j, by omega⟩ = 0 ∧ P ⟨3 + i, by omega⟩ ⟨3 + j, by omega⟩ = C ⟨6 + i, by omega⟩ ⟨6 + j, by omega⟩

/-- The odometry for message `m`, predicted as `x` with covariance `C`. -/
structure Predicted (m : ImuMsg) (x : NavState) (C : Matrix (Fin 15) (Fin 15) ℝ) (o : OdometryMsg) : Prop where
  stamp : o.header.stamp = m.header.stamp
  frame : o.header.frameId = "map"
  position : o.pose.pose.position = ⟨x.t 0, x.t 1, x.t 2⟩
  orientation : Quat.Rotation x.R → (fromQuaternion o.pose.pose.orientation).toMatrix = x.R ∧
    Quat.Unit (fromQuaternion o.pose.pose.orientation)
  velocity : o.twist.twist.linear = ⟨x.v 0, x.v 1, x.v 2⟩
  angularVelocity : o.twist.twist.angular = m.angularVelocity
  poseCovariance : PoseCovarianceOf o.pose.covariance C
  twistCovariance : TwistCovarianceOf o.twist.covariance m.angularVelocityCov C

theorem diagonalBlocks_entries (A B : Matrix (Fin 3) (Fin 3) ℝ) (i j : Fin 3) :
    diagonalBlocks A B ⟨i, by omega⟩ ⟨j, by omega⟩ = A i j ∧ diagonalBlocks A B ⟨i, by omega⟩ ⟨3 + j, by omega⟩ = 0 ∧
    diagonalBlocks A B ⟨3 + i, by omega⟩ ⟨j, by omega⟩ = 0 ∧ diagonalBlocks A B ⟨3 + i, by omega⟩ ⟨3 + j, by omega⟩ = B i j := by
  have h1 : ∀ k : Fin 3, sixEquiv.symm ⟨k, by omega⟩ = Sum.inl k := by
    intro k; rw [Equiv.symm_apply_eq]; rfl
  have h2 : ∀ k : Fin 3, sixEquiv.symm ⟨3 + k, by omega⟩ = Sum.inr k := by
    intro k; rw [Equiv.symm_apply_eq]; rfl
  unfold diagonalBlocks
  simp only [Matrix.submatrix_apply, h1, h2]
  exact ⟨rfl, rfl, rfl, rfl⟩

theorem integratedOdometry_ok {m : ImuMsg} {imu : Imu} (env : IntegrateEnv) (x : NavState) (ms : List Measured)
    (h1 : imu.timestamp = m.header.stamp) (h2 : imu.angularVelocity = fromVector3 m.angularVelocity)
    (h3 : RowMajor m.angularVelocityCov imu.angularVelocityCov) :
    ∃ o, integratedOdometry env imu x ms = .ok o ∧ Predicted m x (env.covariance ms) o := by
  obtain ⟨pa, e1, r1⟩ := writeArray_spec OdometryMsg.empty.pose.covariance
    ((poseBlock (env.covariance ms)).submatrix rosOrder rosOrder) rfl
  obtain ⟨ta, e2, r2⟩ := writeArray_spec OdometryMsg.empty.twist.covariance
    ((diagonalBlocks imu.angularVelocityCov (velocityBlock (env.covariance ms))).submatrix rosOrder rosOrder) rfl
  refine ⟨⟨⟨0, imu.timestamp, "map"⟩, "body_i-1", ⟨⟨toPoint x.t, toQuaternion (Quat.ofMatrix x.R)⟩, pa⟩,
    ⟨⟨toVector3 x.v, toVector3 imu.angularVelocity⟩, ta⟩⟩, ?_, ?_⟩
  · unfold integratedOdometry toFixedArray
    dsimp only
    rw [reorder_six, Outcome.bind_ok, e1, Outcome.bind_ok, reorder_six, Outcome.bind_ok, e2, Outcome.bind_ok]
    rfl
  · refine ⟨h1, rfl, rfl, fun hR => ⟨Quat.toMatrix_ofMatrix hR, Quat.ofMatrix_unit hR⟩, rfl, by rw [h2]; rfl, ⟨_, r1, fun i j => rfl⟩,
      ⟨_, r2, fun i j => ?_⟩⟩
    obtain ⟨b1, b2, b3, b4⟩ := diagonalBlocks_entries imu.angularVelocityCov (velocityBlock (env.covariance ms)) i j
    rw [b1, b2, b3, b4]
    exact ⟨h3.2 i j, rfl, rfl, rfl⟩

theorem toSec_sub (a b : Int) : toSec (b - a) = ((b : ℝ) - (a : ℝ)) / 1000000000 := by
  unfold toSec
  push_cast
  rfl

theorem measured_snoc (l : List ImuMsg) (a b : ImuMsg) : measured (l ++ [a, b]) = measured (l ++ [a]) ++
    [⟨fromVector3 b.linearAcceleration, fromVector3 b.angularVelocity, toSec (b.header.stamp - a.header.stamp)⟩] := by
  induction l with
  | nil => simp only [List.nil_append, measured, toSec_sub]; rfl
  | cons c l ih =>
    cases l with
    | nil => simp only [List.cons_append, List.nil_append, measured, toSec_sub]; rfl
    | cons d l =>
      simp only [List.cons_append, measured] at ih ⊢
      rw [ih]

theorem runIntegrate_append (env : IntegrateEnv) (junk : Imu) (s : Integrate) (a b : List ImuMsg) {s' : Integrate}
    (h : runIntegrate env junk s a = (.ok (), s')) : runIntegrate env junk s (a ++ b) = runIntegrate env junk s' b := by
  induction a generalizing s with
  | nil =>
    simp only [runIntegrate, Prod.mk.injEq, true_and] at h
    rw [h]; rfl
  | cons m a ih =>
    rw [List.cons_append, runIntegrate]
    rw [runIntegrate] at h
    cases e : integrate env junk s m with
    | ok t => rw [e] at h; exact ih t h
    | throws => rw [e] at h; cases h
    | ub => rw [e] at h; cases h

/-- What holds after the messages `m0 :: ms`. -/
structure Reckoned (env : IntegrateEnv) (m0 : ImuMsg) (ms : List ImuMsg) (x0 : NavState) (s : Integrate) : Prop where
  timestamp : ∀ l, (m0 :: ms).getLast? = some l → s.timestamp = l.header.stamp
  initial : s.initial = x0
  measurements : s.measurements = measured (m0 :: ms)
  frame : s.path.header.frameId = "map"
  poses : s.path.poses = s.published.map (fun p => ⟨⟨0, p.1.header.stamp, "body_i-1"⟩, p.1.pose.pose⟩)
  count : s.published.length = ms.length
  each : ∀ (i : Nat) (m : ImuMsg), ms[i]? = some m → ∃ o p, s.published[i]? = some (o, p) ∧
    Predicted m (env.predict x0 (measured ((m0 :: ms).take (i + 2)))) (env.covariance (measured ((m0 :: ms).take (i + 2)))) o ∧
    p.header.stamp = m.header.stamp ∧ p.header.frameId = "map" ∧
    p.poses = (s.published.take (i + 1)).map (fun q => ⟨⟨0, q.1.header.stamp, "body_i-1"⟩, q.1.pose.pose⟩)

theorem startRotation_eq (env : IntegrateEnv) {q : QuaternionMsg} (hq : KnownOrUnknown q) (hX : Quat.Rotation env.imuToBody.R) :
    (bodyOrientation env (fromQuaternion q)).toMatrix = startRotation q env.imuToBody.R := by
  unfold bodyOrientation startRotation
  by_cases h : q = ⟨0, 0, 0, 0⟩
  · rw [if_pos h, if_pos (by rw [h]; rfl), Quat.toMatrix_id]
  · have h' : fromQuaternion q ≠ zeroQuat := by
      intro e
      apply h
      have := congrArg toQuaternion e
      exact this
    rw [if_neg h, if_neg h']
    have hu : Quat.Unit (fromQuaternion q) := hq.resolve_left h
    have hr := hu.rotation
    apply Quat.toMatrix_ofMatrix
    refine ⟨?_, by rw [det_mul, hr.det, hX.det, mul_one]⟩
    rw [transpose_mul, Matrix.mul_assoc, ← Matrix.mul_assoc _ _ env.imuToBody.R, hr.orthogonal, Matrix.one_mul, hX.orthogonal]

theorem reckoned (env : IntegrateEnv) (junk : Imu) (m0 : ImuMsg) (ms : List ImuMsg) (hs : ∀ m ∈ m0 :: ms, Sized m)
    (h0 : 0 < m0.header.stamp) (hinc : (m0 :: ms).Pairwise (fun a b => a.header.stamp < b.header.stamp))
    (hq : KnownOrUnknown m0.orientation) (hX : Quat.Rotation env.imuToBody.R) :
    ∃ s, runIntegrate env junk newIntegrate (m0 :: ms) = (.ok (), s) ∧
      Reckoned env m0 ms ⟨startRotation m0.orientation env.imuToBody.R, env.position, env.velocity⟩ s := by
  induction ms using List.reverseRecOn with
  | nil =>
    obtain ⟨imu, e, e1, -, e2, -⟩ := fromImu_ok (hs m0 List.mem_cons_self) (freshImu junk)
    refine ⟨{ newIntegrate with initial := initialState env imu, timestamp := imu.timestamp }, ?_, ?_, ?_, rfl, rfl, rfl, rfl,
      fun i m h => by cases h⟩
    · rw [runIntegrate, integrate, e, Outcome.bind_ok, if_neg (by simp [newIntegrate])]
      rfl
    · intro l hl
      obtain rfl : m0 = l := Option.some.inj hl
      exact e1
    · show initialState env imu = _
      unfold initialState
      rw [e2, startRotation_eq env hq hX]
  | append_singleton ms b ih =>
    have hsub : ∀ {m}, m ∈ m0 :: ms → m ∈ m0 :: (ms ++ [b]) := fun h => by
      rw [← List.cons_append]; exact List.mem_append_left _ h
    obtain ⟨s, e, r⟩ := ih (fun m h => hs m (hsub h)) (by rw [← List.cons_append] at hinc; exact (List.pairwise_append.1 hinc).1)
    obtain ⟨a, ha⟩ : ∃ a, (m0 :: ms).getLast? = some a := ⟨_, List.getLast?_eq_some_getLast (List.cons_ne_nil _ _)⟩
    have hsplit : ∃ l, m0 :: ms = l ++ [a] := ⟨(m0 :: ms).dropLast, (List.dropLast_append_getLast? a ha).symm⟩
    obtain ⟨l, hl⟩ := hsplit
    have hts := r.timestamp a ha
    have hmem : a ∈ m0 :: ms := by rw [hl]; simp
    have hab : a.header.stamp < b.header.stamp := by
      rw [← List.cons_append] at hinc
      exact (List.pairwise_append.1 hinc).2.2 a hmem b (by simp)
    have hpos : 0 < a.header.stamp := by
      rcases List.mem_cons.1 hmem with rfl | h
      · exact h0
      · rw [← List.cons_append] at hinc
        exact h0.trans ((List.pairwise_cons.1 (List.pairwise_append.1 hinc).1).1 a h)
    obtain ⟨imu, f, f1, -, -, f2, f3, -, f4, -⟩ := fromImu_ok (hs b (by simp)) (freshImu junk)
    have hms : s.measurements ++ [⟨imu.linearAcceleration, imu.angularVelocity, toSec (imu.timestamp - s.timestamp)⟩] =
        measured (m0 :: (ms ++ [b])) := by
      rw [r.measurements, f1, f2, f3, hts, ← List.cons_append, hl, List.append_assoc]
      exact (measured_snoc l a b).symm
    obtain ⟨o, ho, hp⟩ := integratedOdometry_ok (m := b) env (env.predict s.initial (measured (m0 :: (ms ++ [b]))))
      (measured (m0 :: (ms ++ [b]))) f1 f2 f4
    have hdt : 0 < toSec (imu.timestamp - s.timestamp) := by
      rw [f1, hts]
      unfold toSec
      have : (0 : ℝ) < ((b.header.stamp - a.header.stamp : Int) : ℝ) := by exact_mod_cast (by omega)
      positivity
    have hst : imu.timestamp = o.header.stamp := f1.trans hp.stamp.symm
    let path : PathMsg := ⟨{ s.path.header with stamp := imu.timestamp },
      s.path.poses ++ [⟨{ HeaderMsg.empty with stamp := imu.timestamp, frameId := "body_i-1" }, o.pose.pose⟩]⟩
    refine ⟨{ s with
      measurements := measured (m0 :: (ms ++ [b])), path := path, published := s.published ++ [(o, path)],
      timestamp := imu.timestamp }, ?_, ?_⟩
    · rw [← List.cons_append, runIntegrate_append env junk _ _ _ e, runIntegrate, integrate, f, Outcome.bind_ok,
        if_pos (by rw [hts]; omega), integrateNext]
      dsimp only
      rw [if_neg hdt.ne', if_neg (not_le.2 hdt), hms, ho, Outcome.bind_ok]
      rfl
    · refine ⟨?_, r.initial, rfl, r.frame, ?_, ?_, ?_⟩
      · intro c hc
        rw [← List.cons_append, List.getLast?_concat] at hc
        obtain rfl := Option.some.inj hc
        exact f1
      · show s.path.poses ++ [_] = _
        rw [List.map_append, r.poses]
        show _ ++ [(⟨⟨0, imu.timestamp, "body_i-1"⟩, o.pose.pose⟩ : PoseStampedMsg)] = _
        rw [hst]
        rfl
      · show (s.published ++ [_]).length = _
        rw [List.length_append, List.length_append, r.count]
        rfl
      · intro i m hi
        by_cases hlt : i < ms.length
        · rw [List.getElem?_append_left hlt] at hi
          obtain ⟨o', p', e1, e2, e3, e4, e5⟩ := r.each i m hi
          have htake : (m0 :: (ms ++ [b])).take (i + 2) = (m0 :: ms).take (i + 2) := by
            rw [← List.cons_append, List.take_append_of_le_length (by rw [List.length_cons]; omega)]
          refine ⟨o', p', ?_, by rw [htake]; exact e2, e3, e4, ?_⟩
          · show (s.published ++ [_])[i]? = _
            rw [List.getElem?_append_left (by rw [r.count]; exact hlt), e1]
          · show _ = ((s.published ++ [_]).take (i + 1)).map _
            rw [List.take_append_of_le_length (by rw [r.count]; omega), e5]
        · have hi' : i = ms.length := by
            have := (List.getElem?_eq_some_iff.1 hi).1
            rw [List.length_append] at this
            simp only [List.length_cons, List.length_nil] at this
            omega
          subst hi'
          rw [List.getElem?_concat_length] at hi
          obtain rfl := Option.some.inj hi
          refine ⟨o, path, ?_, ?_, f1, r.frame, ?_⟩
          · show (s.published ++ [_])[_]? = _
            rw [← r.count, List.getElem?_concat_length]
          · rw [List.take_of_length_le (by simp), ← r.initial]
            exact hp
          · show s.path.poses ++ [_] = ((s.published ++ [_]).take _).map _
            rw [List.take_of_length_le (by simp [r.count]), List.map_append, r.poses]
            show _ ++ [(⟨⟨0, imu.timestamp, "body_i-1"⟩, o.pose.pose⟩ : PoseStampedMsg)] = _
            rw [hst]
            rfl

/-- C106 (what holds). For every sequence of IMU messages whose stamps are positive and increase, the node publishes one odometry and
one path for each message after the first, in order. The odometry is stamped like the message, in the frame `map`, and holds the
prediction from the initial state with all measurements so far, each lasting since the message before it, and its covariance; the
path holds the poses of all odometries so far, with their stamps. The initial state has the orientation of the first message, for
the body. Missing: the frame of the poses in the path (`C106_fails_path_frame`) and first messages with stamp 0
(`C106_fails_zero_stamp`). -/
theorem C106_dead_reckoning_partial (env : IntegrateEnv) (junk : Imu) (m0 : ImuMsg) (ms : List ImuMsg)
    (hs : ∀ m ∈ m0 :: ms, Sized m) (h0 : 0 < m0.header.stamp)
    (hinc : (m0 :: ms).Pairwise (fun a b => a.header.stamp < b.header.stamp)) (hq : KnownOrUnknown m0.orientation)
    (hX : Quat.Rotation env.imuToBody.R) :
    ∃ s, runIntegrate env junk newIntegrate (m0 :: ms) = (.ok (), s) ∧ s.published.length = ms.length ∧
      ∀ (i : Nat) (m : ImuMsg), ms[i]? = some m → ∃ o p, s.published[i]? = some (o, p) ∧
        Predicted m (env.predict ⟨startRotation m0.orientation env.imuToBody.R, env.position, env.velocity⟩
          (measured ((m0 :: ms).take (i + 2)))) (env.covariance (measured ((m0 :: ms).take (i + 2)))) o ∧
        p.header.stamp = m.header.stamp ∧ p.header.frameId = "map" ∧
        p.poses.map (fun q => (q.header.stamp, q.pose)) =
          (s.published.take (i + 1)).map (fun q => (q.1.header.stamp, q.1.pose.pose)) := by
  obtain ⟨s, e, r⟩ := reckoned env junk m0 ms hs h0 hinc hq hX
  refine ⟨s, e, r.count, fun i m hi => ?_⟩
  obtain ⟨o, p, h1, h2, h3, h4, h5⟩ := r.each i m hi
  exact ⟨o, p, h1, h2, h3, h4, by rw [h5, List.map_map]; rfl⟩

/-- C106. No time is lost or counted twice: the durations of the measurements add up to the time between first and last message. -/
theorem C106_durations (m0 : ImuMsg) (ms : List ImuMsg) (last : ImuMsg) (h : (m0 :: ms).getLast? = some last) :
    ((measured (m0 :: ms)).map Measured.dt).sum = ((last.header.stamp : ℝ) - (m0.header.stamp : ℝ)) / 1000000000 ∧
    (measured (m0 :: ms)).length = ms.length := by
  induction ms generalizing m0 with
  | nil =>
    obtain rfl : m0 = last := Option.some.inj h
    simp [measured]
  | cons b l ih =>
    rw [List.getLast?_cons_cons] at h
    obtain ⟨h1, h2⟩ := ih b h
    rw [measured, List.map_cons, List.sum_cons, h1, List.length_cons, h2]
    refine ⟨?_, rfl⟩
    show ((b.header.stamp : ℝ) - (m0.header.stamp : ℝ)) / 1000000000 + _ = _
    ring

/-- C106. A message that is not later than the one before it ends the node with an exception; what was published before stays. -/
theorem C106_not_increasing (env : IntegrateEnv) (junk : Imu) (m0 : ImuMsg) (ms rest : List ImuMsg) (a b : ImuMsg)
    (hs : ∀ m ∈ m0 :: ms, Sized m) (hb : Sized b) (h0 : 0 < m0.header.stamp)
    (hinc : (m0 :: ms).Pairwise (fun a b => a.header.stamp < b.header.stamp)) (hq : KnownOrUnknown m0.orientation)
    (hX : Quat.Rotation env.imuToBody.R) (ha : (m0 :: ms).getLast? = some a) (hle : b.header.stamp ≤ a.header.stamp) :
    ∃ s, runIntegrate env junk newIntegrate (m0 :: ms) = (.ok (), s) ∧
      runIntegrate env junk newIntegrate (m0 :: ms ++ b :: rest) = (.throws, s) := by
  obtain ⟨s, e, r⟩ := reckoned env junk m0 ms hs h0 hinc hq hX
  refine ⟨s, e, ?_⟩
  have hts := r.timestamp a ha
  have hpos : 0 < a.header.stamp := by
    rcases List.mem_cons.1 (List.mem_of_getLast? ha) with rfl | h
    · exact h0
    · exact h0.trans ((List.pairwise_cons.1 hinc).1 a h)
  obtain ⟨imu, f, f1, -⟩ := fromImu_ok hb (freshImu junk)
  have hdt : toSec (imu.timestamp - s.timestamp) ≤ 0 := by
    rw [f1, hts]
    unfold toSec
    have : ((b.header.stamp - a.header.stamp : Int) : ℝ) ≤ 0 := by exact_mod_cast (by omega)
    linarith
  have : integrate env junk s b = .throws := by
    rw [integrate, f, Outcome.bind_ok, if_pos (by rw [hts]; omega), integrateNext]
    dsimp only
    by_cases hz : toSec (imu.timestamp - s.timestamp) = 0
    · rw [if_pos hz]
    · rw [if_neg hz, if_pos hdt]
  rw [runIntegrate_append env junk _ _ _ e, runIntegrate, this]

/-! #### A concrete case -/

/-- An environment whose prediction moves the body by the acceleration times the duration. -/
noncomputable def sampleEnv : IntegrateEnv where
  predict := fun x ms => { x with t := fun i => x.t i + (ms.map (fun m => m.acceleration i * m.dt)).sum }
  covariance := fun ms => fun i j => if i = j then (ms.length : ℝ) else 0
  imuToBody := ⟨1, 0⟩
  position := 0
  velocity := 0

/-- A message. -/
noncomputable def sampleImuMsg (t : Int) (x : ℝ) : ImuMsg where
  header := ⟨0, t, "imu"⟩
  orientation := ⟨0, 0, 1, 0⟩
  orientationCov := List.replicate 9 0
  angularVelocity := ⟨0, 0, 1⟩
  angularVelocityCov := [1, 2, 3, 4, 5, 6, 7, 8, 9]
  linearAcceleration := ⟨x, 0, 0⟩
  linearAccelerationCov := List.replicate 9 0

theorem sampleImuMsg_sized (t : Int) (x : ℝ) : Sized (sampleImuMsg t x) := ⟨rfl, rfl, rfl⟩

theorem sampleEnv_rotation : Quat.Rotation sampleEnv.imuToBody.R := ⟨by simp [sampleEnv], by simp [sampleEnv]⟩

theorem sampleImuMsg_known (t : Int) (x : ℝ) : KnownOrUnknown (sampleImuMsg t x).orientation := by
  right; simp [sampleImuMsg]

example : ∃ s, runIntegrate sampleEnv ⟨Quat.id, 0, 0, 0, 0, 0, 0, ""⟩ newIntegrate
    [sampleImuMsg 1000000000 5, sampleImuMsg 3000000000 1, sampleImuMsg 4000000000 2] = (.ok (), s) ∧ s.published.length = 2 ∧
    ∃ o p, s.published[1]? = some (o, p) ∧ o.pose.pose.position.x = 4 := by
  obtain ⟨s, e, h1, h2⟩ := C106_dead_reckoning_partial sampleEnv ⟨Quat.id, 0, 0, 0, 0, 0, 0, ""⟩ (sampleImuMsg 1000000000 5)
    [sampleImuMsg 3000000000 1, sampleImuMsg 4000000000 2] (by
      intro m hm
      simp only [List.mem_cons, List.not_mem_nil, or_false] at hm
      rcases hm with rfl | rfl | rfl <;> exact sampleImuMsg_sized _ _) (by simp [sampleImuMsg])
    (by simp [sampleImuMsg]) (sampleImuMsg_known _ _) sampleEnv_rotation
  obtain ⟨o, p, h3, h4, -⟩ := h2 1 _ rfl
  refine ⟨s, e, h1, o, p, h3, ?_⟩
  rw [h4.position]
  simp [sampleEnv, measured, sampleImuMsg]
  norm_num

/-- C106, false for the path: its poses are poses in the frame `map` (they are those of the odometries) but are labelled with the
frame `body_i-1`. -/
theorem C106_fails_path_frame : ∃ (s : Integrate) (o : OdometryMsg) (p : PathMsg) (q : PoseStampedMsg),
    runIntegrate sampleEnv ⟨Quat.id, 0, 0, 0, 0, 0, 0, ""⟩ newIntegrate [sampleImuMsg 1000000000 5, sampleImuMsg 3000000000 1] =
      (.ok (), s) ∧ s.published = [(o, p)] ∧ p.poses = [q] ∧ q.pose = o.pose.pose ∧ o.header.frameId = "map" ∧
    q.header.frameId ≠ "map" := by
  obtain ⟨s, e, r⟩ := reckoned sampleEnv ⟨Quat.id, 0, 0, 0, 0, 0, 0, ""⟩ (sampleImuMsg 1000000000 5) [sampleImuMsg 3000000000 1] (by
      intro m hm
      simp only [List.mem_cons, List.not_mem_nil, or_false] at hm
      rcases hm with rfl | rfl <;> exact sampleImuMsg_sized _ _) (by simp [sampleImuMsg])
    (by simp [sampleImuMsg]) (sampleImuMsg_known _ _) sampleEnv_rotation
  obtain ⟨o, p, h1, h2, -, -, h5⟩ := r.each 0 _ rfl
  have hp : s.published = [(o, p)] := by
    have hc := r.count
    cases hl : s.published with
    | nil => rw [hl] at hc; cases hc
    | cons x l =>
      rw [hl] at hc h1
      cases l with
      | nil => rw [Option.some.inj h1]
      | cons => cases hc
  rw [hp] at h5
  exact ⟨s, o, p, _, e, hp, h5, rfl, h2.frame, by show "body_i-1" ≠ "map"; decide⟩

/-- C106, false when the first message has the stamp 0: it is taken for no message, and the node starts with the second one. -/
theorem C106_fails_zero_stamp : ∃ s : Integrate,
    runIntegrate sampleEnv ⟨Quat.id, 0, 0, 0, 0, 0, 0, ""⟩ newIntegrate [sampleImuMsg 0 5, sampleImuMsg 3000000000 1] = (.ok (), s) ∧
    s.published = [] := by
  obtain ⟨imu, e, e1, -⟩ := fromImu_ok (sampleImuMsg_sized 0 5) (freshImu ⟨Quat.id, 0, 0, 0, 0, 0, 0, ""⟩)
  obtain ⟨imu', e', e1', -⟩ := fromImu_ok (sampleImuMsg_sized 3000000000 1) (freshImu ⟨Quat.id, 0, 0, 0, 0, 0, 0, ""⟩)
  have e1 : imu.timestamp = 0 := e1
  refine ⟨⟨imu'.timestamp, initialState sampleEnv imu', [], newIntegrate.path, []⟩, ?_, rfl⟩
  rw [runIntegrate, integrate, e, Outcome.bind_ok, if_neg (by simp [newIntegrate])]
  dsimp only
  rw [runIntegrate, integrate, e', Outcome.bind_ok, if_neg (by simp [e1])]
  rfl

/-! ### C107: rotating IMU messages -/

/-- C107 (partial). For every message and rotation the orientation in the message published is the rotation applied to the
orientation; the time is that of the message, the frame the one that was configured if it is to be overwritten and otherwise that of
the message; measurements and their covariances are those of the message. Missing: the covariance of the orientation
(`C107_fails_covariance`). -/
theorem C107_rotate_partial (s : ImuTransform) (hs : Quat.Unit s.rotation) (junk : Imu) (m : ImuMsg) (hm : Sized m)
    (hq : Quat.Unit (fromQuaternion m.orientation)) :
    ∃ m', imuTransform s junk m = .ok m' ∧
      (fromQuaternion m'.orientation).toMatrix = s.rotation.toMatrix * (fromQuaternion m.orientation).toMatrix ∧
      Quat.Unit (fromQuaternion m'.orientation) ∧ m'.header.stamp = m.header.stamp ∧
      m'.header.frameId = (if s.overwriteFrame = true then s.newFrame else m.header.frameId) ∧
      m'.angularVelocity = m.angularVelocity ∧ m'.linearAcceleration = m.linearAcceleration ∧
      m'.angularVelocityCov = m.angularVelocityCov ∧ m'.linearAccelerationCov = m.linearAccelerationCov ∧
      ∃ C : Matrix (Fin 3) (Fin 3) ℝ, RowMajor m.orientationCov C ∧ RowMajor m'.orientationCov (s.rotation.toMatrix * C) := by
  obtain ⟨imu, e, e1, e2, e3, e4, e5, c1, c2, c3⟩ := fromImu_ok hm (freshImu junk)
  have key : ∀ i : Imu, i.orientation = s.rotation * imu.orientation → i.timestamp = imu.timestamp →
      i.angularVelocity = imu.angularVelocity → i.linearAcceleration = imu.linearAcceleration →
      i.orientationCov = s.rotation.toMatrix * imu.orientationCov → i.angularVelocityCov = imu.angularVelocityCov →
      i.linearAccelerationCov = imu.linearAccelerationCov →
      ∃ m', toImu ImuMsg.empty i = .ok m' ∧
      (fromQuaternion m'.orientation).toMatrix = s.rotation.toMatrix * (fromQuaternion m.orientation).toMatrix ∧
      Quat.Unit (fromQuaternion m'.orientation) ∧ m'.header.stamp = m.header.stamp ∧ m'.header.frameId = i.frame ∧
      m'.angularVelocity = m.angularVelocity ∧ m'.linearAcceleration = m.linearAcceleration ∧
      m'.angularVelocityCov = m.angularVelocityCov ∧ m'.linearAccelerationCov = m.linearAccelerationCov ∧
      ∃ C : Matrix (Fin 3) (Fin 3) ℝ, RowMajor m.orientationCov C ∧ RowMajor m'.orientationCov (s.rotation.toMatrix * C) := by
    intro i i1 i2 i3 i4 i5 i6 i7
    obtain ⟨m', h, h1, h2, h3, h4, h5, h6, h7, -⟩ := C46_imu i junk ImuMsg.empty rfl rfl rfl
    refine ⟨m', h, ?_, ?_, ?_, ?_, ?_, ?_, ?_, ?_, ⟨imu.orientationCov, c1, ?_⟩⟩
    · rw [h2, i1, (C46_quaternion _ QuaternionMsg.empty).2.2.2.2.1, e3, Quat.toMatrix_mul hs hq]
    · rw [h2, i1, (C46_quaternion _ QuaternionMsg.empty).2.2.2.2.1, e3]; exact hs.mul hq
    · rw [h1, i2, e1]
    · rw [h1]
    · rw [h3, i3, e4]; rfl
    · rw [h4, i4, e5]; rfl
    · rw [i6] at h6; exact h6.unique c2
    · rw [i7] at h7; exact h7.unique c3
    · rw [i5] at h5; exact h5
  unfold imuTransform
  rw [e, Outcome.bind_ok]
  dsimp only
  by_cases h : s.overwriteFrame = true
  · rw [if_pos h, if_pos h]
    exact key _ rfl rfl rfl rfl rfl rfl rfl
  · rw [if_neg h, if_neg h, ← e2]
    exact key _ rfl rfl rfl rfl rfl rfl rfl

/-- C107, false for the covariance of the orientation (a known issue): it is multiplied from one side only, so that a valid covariance
becomes a matrix that is not symmetric. -/
theorem C107_fails_covariance : ∃ (s : ImuTransform) (m : ImuMsg) (C : Matrix (Fin 3) (Fin 3) ℝ), Quat.Unit s.rotation ∧ Sized m ∧
    Quat.Unit (fromQuaternion m.orientation) ∧ RowMajor m.orientationCov C ∧ C.PosDef ∧
    ∀ junk, ∃ (m' : ImuMsg) (C' : Matrix (Fin 3) (Fin 3) ℝ), imuTransform s junk m = .ok m' ∧ RowMajor m'.orientationCov C' ∧ ¬ C'.IsSymm := by
  let C : Matrix (Fin 3) (Fin 3) ℝ := Matrix.diagonal ![1, 2, 3]
  have hs : Quat.Unit (⟨1 / 2, 1 / 2, 1 / 2, 1 / 2⟩ : Quat) := by unfold Quat.Unit; norm_num
  have hC : RowMajor [1, 0, 0, 0, 2, 0, 0, 0, 3] C := by
    refine ⟨rfl, fun i j => ?_⟩
    fin_cases i <;> fin_cases j <;> simp [C]
  let s : ImuTransform := ⟨⟨1 / 2, 1 / 2, 1 / 2, 1 / 2⟩, false, ""⟩
  let m : ImuMsg := { sampleImuMsg 1 1 with orientation := ⟨0, 0, 0, 1⟩, orientationCov := [1, 0, 0, 0, 2, 0, 0, 0, 3] }
  have hm : Sized m := ⟨rfl, (sampleImuMsg_sized 1 1).2⟩
  have hq : Quat.Unit (fromQuaternion m.orientation) := by
    show (1 : ℝ) ^ 2 + 0 ^ 2 + 0 ^ 2 + 0 ^ 2 = 1
    norm_num
  refine ⟨s, m, C, hs, hm, hq, hC, ?_, fun junk => ?_⟩
  · refine Matrix.PosDef.diagonal ?_
    intro i
    fin_cases i <;> norm_num
  · obtain ⟨m', e, -, -, -, -, -, -, -, -, D, hD, hD'⟩ := C107_rotate_partial s hs junk m hm hq
    obtain rfl : D = C := by
      funext i j
      exact Option.some.inj ((hD.2 i j).symm.trans (hC.2 i j))
    refine ⟨m', _, e, hD', fun h => ?_⟩
    have h01 := h.apply 0 1
    simp [C, s, Matrix.mul_apply, Fin.sum_univ_three, Quat.toMatrix] at h01

/-- C107. The rotation that is configured: none is the identity; otherwise the first nine numbers are the matrix, row after row, and
when that is a rotation it is the one that is applied; with fewer numbers the node does not start. The frame is overwritten only when
that is configured. -/
theorem C107_parameters (rotation : Option (List ℝ)) (overwrite : Option Bool) (frame : Option String) (junk : Matrix (Fin 3) (Fin 3) ℝ) :
    (rotation = none → ∃ s, newImuTransform rotation overwrite frame junk = .ok s ∧ s.rotation.toMatrix = 1 ∧ Quat.Unit s.rotation) ∧
    (∀ v, rotation = some v → 9 ≤ v.length → ∃ s M, newImuTransform rotation overwrite frame junk = .ok s ∧ RowMajor (v.take 9) M ∧
      (Quat.Rotation M → s.rotation.toMatrix = M ∧ Quat.Unit s.rotation)) ∧
    (∀ v, rotation = some v → v.length < 9 → newImuTransform rotation overwrite frame junk = .throws) ∧
    (∀ s, newImuTransform rotation overwrite frame junk = .ok s → (s.overwriteFrame = true ↔ overwrite = some true) ∧
      ∀ f, frame = some f → s.newFrame = f) := by
  obtain ⟨h1, h2, h3⟩ := C86_param rotation junk
  refine ⟨fun h => ?_, fun v h hv => ?_, fun v h hv => ?_, fun s h => ?_⟩
  · have hR : Quat.Rotation (1 : Matrix (Fin 3) (Fin 3) ℝ) := ⟨by simp, by simp⟩
    refine ⟨⟨Quat.ofMatrix 1, overwrite.getD false, frame.getD ""⟩, ?_, Quat.toMatrix_ofMatrix hR, Quat.ofMatrix_unit hR⟩
    unfold newImuTransform
    rw [h1 h, Outcome.bind_ok]
  · obtain ⟨M, e, hM⟩ := h2 v h hv
    refine ⟨⟨Quat.ofMatrix M, overwrite.getD false, frame.getD ""⟩, M, ?_, hM,
      fun hR => ⟨Quat.toMatrix_ofMatrix hR, Quat.ofMatrix_unit hR⟩⟩
    unfold newImuTransform
    rw [e, Outcome.bind_ok]
  · unfold newImuTransform
    rw [h3 v h hv, Outcome.bind_throws]
  · unfold newImuTransform at h
    cases hm : matrix3dFromParam rotation junk with
    | ok M =>
      rw [hm, Outcome.bind_ok] at h
      obtain rfl := Outcome.ok.inj h
      refine ⟨?_, fun f hf => by rw [hf]; rfl⟩
      cases overwrite with
      | none => simp
      | some b => simp
    | throws => rw [hm, Outcome.bind_throws] at h; cases h
    | ub => rw [hm, Outcome.bind_ub] at h; cases h

/-! ### C108: odometry and IMU orientations as transforms -/

/-- C108. The transform for an odometry holds its pose, its time and its frames. -/
theorem C108_odometry (o : OdometryMsg) :
    (odometryToTf o).header = o.header ∧ (odometryToTf o).childFrameId = o.childFrameId ∧
    (odometryToTf o).transform.rotation = o.pose.pose.orientation ∧
    (odometryToTf o).transform.translation.x = o.pose.pose.position.x ∧
    (odometryToTf o).transform.translation.y = o.pose.pose.position.y ∧
    (odometryToTf o).transform.translation.z = o.pose.pose.position.z :=
  ⟨rfl, rfl, rfl, rfl, rfl, rfl⟩

/-- C108 (partial). For every IMU message the node broadcasts the orientation of the IMU in the fixed frame, at the time of the message,
without translation; with `apply_transform`, also the frame that is turned by the configured rotation from the IMU, with the configured
translation, at the same time. Missing: that these are transforms between two frames (`C108_fails_default_frames`). -/
theorem C108_analysis_partial (s : ImuAnalysis) (hs : Quat.Unit s.rotation) (junk : Imu) (m : ImuMsg) (hm : Sized m) :
    ∃ tf tfs, analyse s junk m = .ok (tf :: tfs) ∧ tf.header.stamp = m.header.stamp ∧ tf.header.frameId = s.fixedFrame ∧
      tf.childFrameId = m.header.frameId ∧ tf.transform.rotation = m.orientation ∧ tf.transform.translation = ⟨0, 0, 0⟩ ∧
      (s.applyTransform = false → tfs = []) ∧
      (s.applyTransform = true → ∃ tf', tfs = [tf'] ∧ tf'.header = tf.header ∧ tf'.childFrameId = s.transformedFrame ∧
        tf'.transform.translation = ⟨s.translation 0, s.translation 1, s.translation 2⟩ ∧
        (Quat.Unit (fromQuaternion m.orientation) → Quat.Unit (fromQuaternion tf'.transform.rotation) ∧
          (fromQuaternion tf'.transform.rotation).toMatrix = (fromQuaternion m.orientation).toMatrix * s.rotation.toMatrix)) := by
  obtain ⟨imu, e, -, -, e3, -⟩ := fromImu_ok hm (freshImu junk)
  refine ⟨⟨⟨0, m.header.stamp, s.fixedFrame⟩, m.header.frameId, ⟨⟨0, 0, 0⟩, m.orientation⟩⟩,
    if s.applyTransform then [⟨⟨0, m.header.stamp, s.fixedFrame⟩, s.transformedFrame,
      ⟨⟨s.translation 0, s.translation 1, s.translation 2⟩, toQuaternion (imu.orientation * s.rotation)⟩⟩] else [],
    ?_, rfl, rfl, rfl, rfl, rfl, fun h => by rw [h]; rfl, fun h => ?_⟩
  · unfold analyse
    dsimp only
    rw [e, Outcome.bind_ok]
    by_cases h : s.applyTransform = true
    · rw [if_pos h, if_pos h]; rfl
    · rw [if_neg h, if_neg h]; rfl
  · rw [if_pos h]
    refine ⟨_, rfl, rfl, rfl, rfl, fun hq => ?_⟩
    show Quat.Unit (fromQuaternion (toQuaternion _)) ∧ (fromQuaternion (toQuaternion _)).toMatrix = _
    rw [(C46_quaternion _ QuaternionMsg.empty).2.2.2.2.1, e3]
    exact ⟨hq.mul hs, Quat.toMatrix_mul hq hs⟩

/-- C108. The parameters of the analysis: translation and rotation are read element by element, and lists that are too short are
refused. -/
theorem C108_parameters (fixed : Option String) (apply : Option Bool) (transformed : Option String) (t r : Option (List ℝ))
    (junk : Matrix (Fin 3) (Fin 3) ℝ) :
    (∀ v w, t = some v → r = some w → 3 ≤ v.length → 9 ≤ w.length → ∃ s M, newImuAnalysis fixed apply transformed t r junk = .ok s ∧
      (∀ i : Fin 3, v[(i : Nat)]? = some (s.translation i)) ∧ RowMajor (w.take 9) M ∧
      (Quat.Rotation M → s.rotation.toMatrix = M ∧ Quat.Unit s.rotation)) ∧
    (∀ v, t = some v → v.length < 3 → newImuAnalysis fixed apply transformed t r junk = .throws) ∧
    (∀ w, r = some w → w.length < 9 → newImuAnalysis fixed apply transformed t r junk = .throws) := by
  obtain ⟨-, h2, h3⟩ := C86_param r junk
  have short : ∀ v, t = some v → v.length < 3 → vectorFromParam t = .throws := by
    rintro v rfl hv
    match v, hv with
    | [], _ => rfl
    | [_], _ => rfl
    | [_, _], _ => rfl
    | _ :: _ :: _ :: _, h => simp at h; omega
  refine ⟨?_, fun v h hv => ?_, fun w h hw => ?_⟩
  · rintro v w rfl rfl hv hw
    match v, hv with
    | x :: y :: z :: l, _ =>
      obtain ⟨M, e, hM⟩ := h2 w rfl hw
      refine ⟨⟨fixed.getD "fixed", apply.getD false, transformed.getD "fixed", ![x, y, z], Quat.ofMatrix M⟩, M, ?_, ?_, hM,
        fun hR => ⟨Quat.toMatrix_ofMatrix hR, Quat.ofMatrix_unit hR⟩⟩
      · unfold newImuAnalysis
        have : vectorFromParam (some (x :: y :: z :: l)) = .ok ![x, y, z] := rfl
        rw [this, Outcome.bind_ok, e, Outcome.bind_ok]
      · intro i
        fin_cases i <;> rfl
  · unfold newImuAnalysis
    rw [short v h hv, Outcome.bind_throws]
  · unfold newImuAnalysis
    rw [h3 w h hw]
    cases ht : vectorFromParam t with
    | ok u => rfl
    | throws => rfl
    | ub =>
      exfalso
      cases t with
      | none => cases ht
      | some v =>
        match v with
        | [] => cases ht
        | [_] => cases ht
        | [_, _] => cases ht
        | _ :: _ :: _ :: _ => cases ht

/-- C108, false with the default frames: the second transform goes from the fixed frame to itself. -/
theorem C108_fails_default_frames (junk : Imu) (J : Matrix (Fin 3) (Fin 3) ℝ) : ∃ (s : ImuAnalysis) (m : ImuMsg)
    (tf tf' : TransformStampedMsg), newImuAnalysis none (some true) none none none J = .ok s ∧ analyse s junk m = .ok [tf, tf'] ∧
      tf'.header.frameId = tf'.childFrameId := by
  have hJ := (C86_param (none : Option (List ℝ)) J).1 rfl
  have hR : Quat.Rotation (1 : Matrix (Fin 3) (Fin 3) ℝ) := ⟨by simp, by simp⟩
  obtain ⟨tf, tfs, e, -, h1, -, -, -, -, h2⟩ := C108_analysis_partial
    ⟨"fixed", true, "fixed", ![0, 0, 0], Quat.ofMatrix 1⟩ (Quat.ofMatrix_unit hR) junk (sampleImuMsg 1 1) (sampleImuMsg_sized 1 1)
  obtain ⟨tf', rfl, h3, h4, -⟩ := h2 rfl
  refine ⟨_, sampleImuMsg 1 1, tf, tf', ?_, e, ?_⟩
  · unfold newImuAnalysis
    have : vectorFromParam none = .ok ![0, 0, 0] := rfl
    rw [this, Outcome.bind_ok, hJ, Outcome.bind_ok]
    rfl
  · rw [h3, h1, h4]

/-! ### C109: conversions of the back end -/

/-- C109. Isometries and poses of the optimiser: rotation and translation are kept, so that conversion is lossless both ways. -/
theorem C109_poses (T : Iso ℝ) (P : Pose3) :
    (toGtsam T).R = T.R ∧ (toGtsam T).t = T.t ∧ toEigen (toGtsam T) = T ∧ toGtsam (toEigen P) = P ∧
    rotToEigen P.R = (toEigen P).R := by
  have h1 : ∀ R t, rotationBlock (matrix4 R t) = R := by
    intro R t; funext i j; fin_cases i <;> fin_cases j <;> rfl
  have h2 : ∀ R t, translationBlock (matrix4 R t) = t := by
    intro R t; funext i; fin_cases i <;> rfl
  refine ⟨h1 _ _, h2 _ _, ?_, ?_, (h1 _ _).symm⟩
  · exact Iso.ext ((h1 _ _).trans (h1 _ _)) ((h2 _ _).trans (h2 _ _))
  · exact Pose3.ext ((h1 _ _).trans (h1 _ _)) ((h2 _ _).trans (h2 _ _))

/-- C109. Poses in messages: a pose comes back; the quaternion in the message is a unit quaternion. -/
theorem C109_pose_messages (P : Pose3) (hP : Quat.Rotation P.R) :
    poseFromRos (poseToRos P) = P ∧ Quat.Unit (fromQuaternion (poseToRos P).orientation) :=
  ⟨Pose3.ext (Quat.toMatrix_ofMatrix hP) ((C46_point P.t PointMsg.empty).2.2.2.1), Quat.ofMatrix_unit hP⟩

/-- C109. A message with a unit quaternion comes back as the same rotation and position. -/
theorem C109_pose_messages' (m : PoseMsg) (hm : Quat.Unit (fromQuaternion m.orientation)) :
    (poseToRos (poseFromRos m)).position = m.position ∧
    (fromQuaternion (poseToRos (poseFromRos m)).orientation).toMatrix = (fromQuaternion m.orientation).toMatrix :=
  ⟨rfl, Quat.toMatrix_ofMatrix hm.rotation⟩

/-- C109. Biases: each comes back as itself, with the time and the frame that were given. -/
theorem C109_biases (m : ImuBiasesMsg) (b : ImuBias) (time : Int) (frame : String) :
    fromImuBiases (toImuBiases m b time frame) = b ∧ (toImuBiases m b time frame).header.stamp = time ∧
    (toImuBiases m b time frame).header.frameId = frame ∧
    (toImuBiases m b time frame).accelerometerBias = ⟨b.accelerometer 0, b.accelerometer 1, b.accelerometer 2⟩ ∧
    (toImuBiases m b time frame).gyroscopeBias = ⟨b.gyroscope 0, b.gyroscope 1, b.gyroscope 2⟩ :=
  ⟨ImuBias.ext ((C46_vector3 b.accelerometer Vector3Msg.empty).2.2.2.1) ((C46_vector3 b.gyroscope Vector3Msg.empty).2.2.2.1),
    rfl, rfl, rfl, rfl⟩

/-- C109. Arrays of IMU measurements: the messages are appended, one for each measurement in order, and reading them appends exactly
the measurements. -/
theorem C109_imu_arrays (junk : Imu) (array old : List Imu) (msgs : List ImuMsg) :
    ∃ l, toImuArray array msgs = .ok (msgs ++ l) ∧ l.length = array.length ∧
      l.map (fun m => (m.header.stamp, m.header.frameId)) = array.map (fun i => (i.timestamp, i.frame)) ∧
      fromImuArray junk l old = .ok (old ++ array) := by
  induction array generalizing msgs old with
  | nil => exact ⟨[], by rw [List.append_nil]; rfl, rfl, rfl, by rw [List.append_nil]; rfl⟩
  | cons i is ih =>
    obtain ⟨m, e, h1, -, -, -, -, -, -, h2⟩ := C46_imu i (freshImu junk) ImuMsg.empty rfl rfl rfl
    obtain ⟨l, e', hl, hh, hf⟩ := ih (old ++ [i]) (msgs ++ [m])
    refine ⟨m :: l, ?_, by rw [List.length_cons, hl, List.length_cons], ?_, ?_⟩
    · unfold toImuArray at e' ⊢
      rw [List.foldlM_cons, e, Outcome.bind_ok, Outcome.bind_ok, e', List.append_assoc]
      rfl
    · rw [List.map_cons, List.map_cons, hh, h1]
    · unfold fromImuArray at hf ⊢
      rw [List.foldlM_cons, h2, Outcome.bind_ok, Outcome.bind_ok, hf, List.append_assoc]
      rfl

/-- A bias that is not zero, and a rotation that is not the identity, meet the hypotheses. -/
example : fromImuBiases (toImuBiases ⟨.empty, .empty, .empty⟩ ⟨![1, 2, 3], ![4, 5, 6]⟩ 7 "imu") = ⟨![1, 2, 3], ![4, 5, 6]⟩ ∧
    Quat.Rotation (⟨1 / 2, 1 / 2, 1 / 2, 1 / 2⟩ : Quat).toMatrix :=
  ⟨(C109_biases _ _ _ _).1, Quat.Unit.rotation (by unfold Quat.Unit; norm_num)⟩

end EigenRos

end Serpent
