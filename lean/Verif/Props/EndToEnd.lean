import Verif.Model.Odometry
import Verif.Spec.Odometry
import Verif.Props.MotionDeskew
import Verif.Props.MappingGeometry

/-!
# From alignments to the trajectory and the map (C142)
-/

namespace Serpent

namespace Motion

open EigenExt EigenRos Matrix

theorem rigid_cross {A : Iso ℝ} (h : Rigid A) (u v : Fin 3 → ℝ) :
    crossProduct (A.R *ᵥ u) (A.R *ᵥ v) = A.R *ᵥ crossProduct u v := by
  have hs : ∀ a b : Fin 3 → ℝ, skewSymmetric a *ᵥ b = crossProduct a b := by
    intro a b
    funext i
    fin_cases i <;> simp [skewSymmetric, cross_apply, Matrix.mulVec, dotProduct, Fin.sum_univ_three] <;> ring
  rw [← hs, ← hs, mulVec_mulVec, h.skew u, mulVec_mulVec]

/-- Rigid transforms that agree on three points which are not on a line are equal. -/
theorem rigid_ext {A B : Iso ℝ} (hA : Rigid A) (hB : Rigid B) {a b c : Fin 3 → ℝ} (hc : crossProduct (b - a) (c - a) ≠ 0)
    (ha : A.apply a = B.apply a) (hb : A.apply b = B.apply b) (hcc : A.apply c = B.apply c) : A = B := by
  have diff : ∀ (C : Iso ℝ) (x y : Fin 3 → ℝ), C.R *ᵥ (x - y) = C.apply x - C.apply y := by
    intro C x y
    unfold Iso.apply
    rw [mulVec_sub]
    abel
  set u := b - a with hu
  set v := c - a with hv
  have h1 : A.R *ᵥ u = B.R *ᵥ u := by rw [hu, diff, diff, ha, hb]
  have h2 : A.R *ᵥ v = B.R *ᵥ v := by rw [hv, diff, diff, ha, hcc]
  have h3 : A.R *ᵥ crossProduct u v = B.R *ᵥ crossProduct u v := by rw [← rigid_cross hA, ← rigid_cross hB, h1, h2]
  let M : Matrix (Fin 3) (Fin 3) ℝ := (Matrix.of ![u, v, crossProduct u v])ᵀ
  have hM : A.R * M = B.R * M := by
    ext i j
    have e : ∀ C : Matrix (Fin 3) (Fin 3) ℝ, (C * M) i j = (C *ᵥ (![u, v, crossProduct u v] j)) i := by
      intro C
      rfl
    rw [e, e]
    fin_cases j
    · exact congrFun h1 i
    · exact congrFun h2 i
    · exact congrFun h3 i
  have hdet : M.det ≠ 0 := by
    have : M.det = crossProduct u v ⬝ᵥ crossProduct u v := by
      rw [det_transpose, det_fin_three]
      simp [cross_apply, dotProduct, Fin.sum_univ_three]
      ring
    rw [this]
    intro e
    exact hc (dotProduct_self_eq_zero.1 e)
  have hR : A.R = B.R := by
    have := congrArg (· * M⁻¹) hM
    simpa [Matrix.mul_assoc, Matrix.mul_nonsing_inv M (isUnit_iff_ne_zero.2 hdet)] using this
  have ht : A.t = B.t := by
    have := ha
    unfold Iso.apply at this
    rw [hR] at this
    exact add_left_cancel this
  ext1
  · exact hR
  · exact ht

/-- C142. What an alignment determines: a rigid transform that takes what the lidar sees of three points not on a line at its second
pose to what it saw at the first is the motion of the lidar, and the motion of the lidar does so. -/
theorem C142_alignment {W : Set (Fin 3 → ℝ)} (hW : NotCollinear W) {L L' : Iso ℝ} (hL : Rigid L) (hL' : Rigid L') (T : Iso ℝ) :
    Aligns W L L' T ↔ L * T = L' := by
  constructor
  · intro h
    obtain ⟨a, ha, b, hb, c, hc, hne⟩ := hW
    have key : ∀ w ∈ W, (L * T).apply (L'⁻¹.apply w) = L'.apply (L'⁻¹.apply w) := by
      intro w hw
      have e1 : L'.apply (L'⁻¹.apply w) = w := by rw [← Iso.apply_mul, hL'.mul_inv, Iso.apply_one]
      have e2 : L.apply (L⁻¹.apply w) = w := by rw [← Iso.apply_mul, hL.mul_inv, Iso.apply_one]
      rw [Iso.apply_mul, h.takes w hw _ _ e2 e1, e2, e1]
    have key' : ∀ w ∈ W, (L * T * L'⁻¹).apply w = (1 : Iso ℝ).apply w := by
      intro w hw
      rw [Iso.apply_mul, key w hw, ← Iso.apply_mul, hL'.mul_inv]
    have := rigid_ext ((hL.mul h.rigid).mul hL'.inv) Rigid.one hne (key' a ha) (key' b hb) (key' c hc)
    calc L * T = L * T * (L'⁻¹ * L') := by rw [hL'.inv_mul, Iso.mul_one]
      _ = L' := by rw [← Iso.mul_assoc, this, Iso.one_mul]
  · intro h
    have hT : T = L⁻¹ * L' := by rw [← h, ← Iso.mul_assoc, hL.inv_mul, Iso.one_mul]
    refine ⟨by rw [hT]; exact hL.inv.mul hL', ?_⟩
    intro w _ x x' hx hx'
    rw [hT, Iso.apply_mul, hx', ← hx, ← Iso.apply_mul, hL.inv_mul, Iso.apply_one]

/-- The rigid motion of a step. -/
theorem motion_rigid {A B X T : Iso ℝ} (hA : Rigid A) (hB : Rigid B) (hX : Rigid X) (h : IsSensorMotion A B X T) : Rigid T := by
  have hT : T = (A * X)⁻¹ * (B * X) := by rw [← h, ← Iso.mul_assoc, (hA.mul hX).inv_mul, Iso.one_mul]
  rw [hT]
  exact (hA.mul hX).inv.mul (hB.mul hX)

/-- C142. When each alignment finds the motion of the lidar, the poses of the states are the true poses of the body, seen from where
the first state puts it: for any number of alignments, any motion and any mounting. -/
theorem C142_trajectory {f : Frames} {X : Iso ℝ} (h : Mounted f "lidar" X) (B : ℕ → Iso ℝ) (hB : ∀ k, Rigid (B k)) (Ts : List (Iso ℝ))
    (hT : ∀ k T, Ts[k]? = some T → IsSensorMotion (B k) (B (k + 1)) X T) (P : Pose3) :
    ∃ l, odometryPoses f P Ts = .ok l ∧ l.length = Ts.length + 1 ∧
      ∀ k Q, l[k]? = some Q → isoOf Q = isoOf P * (B 0)⁻¹ * B k := by
  induction Ts generalizing P B with
  | nil =>
    refine ⟨[P], rfl, rfl, ?_⟩
    intro k Q hQ
    rcases k with _ | k
    · simp at hQ
      subst hQ
      rw [Iso.mul_assoc, (hB 0).inv_mul, Iso.mul_one]
    · simp at hQ
  | cons T Ts ih =>
    have hm := hT 0 T (by simp)
    have hr := motion_rigid (hB 0) (hB 1) h.rigid hm
    obtain ⟨m, em, hm'⟩ := C134_result h P hr
    obtain ⟨l, el, hl, hp⟩ := ih (fun k => B (k + 1)) (fun k => hB (k + 1)) (fun k T' hk => hT (k + 1) T' (by simpa using hk))
      (poseFromRegistration P m)
    have hnew : isoOf (poseFromRegistration P m) = isoOf P * (B 0)⁻¹ * B 1 := by
      unfold IsSensorMotion at hm hm'
      have e : ∀ Z : Iso ℝ, Z * X * X⁻¹ = Z := fun Z => by rw [Iso.mul_assoc, h.rigid.mul_inv, Iso.mul_one]
      have hXT : X * T = (B 0)⁻¹ * B 1 * X := by
        rw [Iso.mul_assoc, ← hm, ← Iso.mul_assoc, ← Iso.mul_assoc, (hB 0).inv_mul, Iso.one_mul]
      rw [← e (isoOf (poseFromRegistration P m)), ← hm', Iso.mul_assoc (isoOf P) X T, hXT, ← Iso.mul_assoc, e, ← Iso.mul_assoc]
    refine ⟨P :: l, by unfold odometryPoses; rw [em, Outcome.bind_ok, el, Outcome.bind_ok], by simp [hl], ?_⟩
    intro k Q hQ
    rcases k with _ | k
    · simp at hQ
      subst hQ
      rw [Iso.mul_assoc, (hB 0).inv_mul, Iso.mul_one]
    · rw [hp k Q (by simpa using hQ), hnew, Iso.mul_assoc _ (B 1), (hB 1).mul_inv, Iso.mul_one]

/-- C142. The factors of the graph agree with the truth: the measurement of the factor made from an alignment that finds the motion
of the lidar is the motion of the body. So the true poses meet all these factors exactly. -/
theorem C142_factors {f : Frames} {X : Iso ℝ} (h : Mounted f "lidar" X) {A B T : Iso ℝ} (hA : Rigid A) (hB : Rigid B)
    (hT : IsSensorMotion A B X T) : ∃ m, refinedPose f T = .ok m ∧ A * isoOf (registrationPose m) = B := by
  obtain ⟨m, em, hm⟩ := C134_result h ⟨A.R, A.t⟩ (motion_rigid hA hB h.rigid hT)
  refine ⟨m, em, ?_⟩
  have e : isoOf (poseFromRegistration ⟨A.R, A.t⟩ m) = A * isoOf (registrationPose m) := rfl
  unfold IsSensorMotion at hm hT
  rw [e] at hm
  have := congrArg (· * X⁻¹) (hm.symm.trans hT)
  simpa only [Iso.mul_assoc, h.rigid.mul_inv, Iso.mul_one] using this

/-- C142. The factors leave no other solution: poses that meet the prior of the first state and every factor made from the alignments
exactly are the true poses of the body, seen from where the prior puts the first one. So an optimiser that meets all its factors
reports the true trajectory, whatever it was started from. -/
theorem C142_graph {f : Frames} {X : Iso ℝ} (h : Mounted f "lidar" X) (B : ℕ → Iso ℝ) (hB : ∀ k, Rigid (B k)) (n : ℕ)
    (T : ℕ → Iso ℝ) (hT : ∀ k < n, IsSensorMotion (B k) (B (k + 1)) X (T k)) (m : ℕ → PoseMsg)
    (hm : ∀ k < n, refinedPose f (T k) = .ok (m k)) (P : Iso ℝ) (A : ℕ → Iso ℝ) :
    (A 0 = P ∧ ∀ k < n, A k * isoOf (registrationPose (m k)) = A (k + 1)) ↔ ∀ k ≤ n, A k = P * (B 0)⁻¹ * B k := by
  have step : ∀ k < n, B k * isoOf (registrationPose (m k)) = B (k + 1) := by
    intro k hk
    obtain ⟨m', e', h'⟩ := C142_factors h (hB k) (hB (k + 1)) (hT k hk)
    rw [hm k hk] at e'
    cases e'
    exact h'
  constructor
  · rintro ⟨h0, hs⟩ k
    induction k with
    | zero => intro _; rw [h0, Iso.mul_assoc, (hB 0).inv_mul, Iso.mul_one]
    | succ k ih =>
      intro hk
      rw [← hs k hk, ih (Nat.le_of_succ_le hk), Iso.mul_assoc, step k hk]
  · intro hA
    refine ⟨by rw [hA 0 (Nat.zero_le n), Iso.mul_assoc, (hB 0).inv_mul, Iso.mul_one], fun k hk => ?_⟩
    rw [hA k hk.le, hA (k + 1) hk, Iso.mul_assoc, step k hk]

/-- C142. The path: the mapping node reads, for each state in order, its stamp and its pose. -/
theorem C142_path (pre : String) (k : Nat) (states : List (Int × Pose3)) (hs : ∀ s ∈ states, Rigid (isoOf s.2)) :
    (readPath (pathEntries pre k states)).map (fun e => (e.1, e.2.toTransform)) = states.map (fun s => (s.1, isoOf s.2)) ∧
    (∀ e ∈ readPath (pathEntries pre k states), e.2.orientation.Unit) ∧
    (pathEntries pre k states).map (fun e => e.header.frameId) =
      (List.range states.length).map (fun i => pre ++ "_" ++ toString (k + i)) := by
  induction states generalizing k with
  | nil => exact ⟨rfl, by simp [readPath, pathEntries], rfl⟩
  | cons s rest ih =>
    obtain ⟨t, P⟩ := s
    have hP := hs (t, P) List.mem_cons_self
    obtain ⟨h1, h2, h3⟩ := ih (k + 1) (fun s hs' => hs s (List.mem_cons_of_mem _ hs'))
    have hq : fromQuaternion (toQuaternion (Quat.ofMatrix P.R)) = Quat.ofMatrix P.R :=
      (C46_quaternion (Quat.ofMatrix P.R) QuaternionMsg.empty).2.2.2.2.1
    have hx : fromPoint (toPoint P.t) = P.t := (C46_point P.t PointMsg.empty).2.2.2.1
    have hrot : Quat.Rotation P.R := rotation_of_rigid hP
    refine ⟨?_, ?_, ?_⟩
    · show (_ , _) :: _ = (_, _) :: _
      refine congrArg₂ _ (Prod.ext rfl ?_) h1
      show (⟨(fromQuaternion (toQuaternion (Quat.ofMatrix P.R))).toMatrix, fromPoint (toPoint P.t)⟩ : Iso ℝ) = ⟨P.R, P.t⟩
      rw [hq, hx, Quat.toMatrix_ofMatrix hrot]
    · intro e he
      rcases List.mem_cons.1 he with rfl | he
      · show (fromQuaternion (toQuaternion (Quat.ofMatrix P.R))).Unit
        rw [hq]
        exact Quat.ofMatrix_unit hrot
      · exact h2 e he
    · show _ :: _ = _
      rw [h3, List.length_cons, List.range_succ_eq_map, List.map_cons, List.map_map]
      refine congrArg₂ _ rfl ?_
      refine List.map_congr_left fun i _ => ?_
      simp [Nat.add_assoc, Nat.add_comm 1]

open Mapping in
/-- C142. The map: when the poses received last for the clouds are the true poses `B t` of the body, seen from the frame `G` (the
true first pose in terms of the first state, or whatever the optimiser makes of it), and the clouds are of a static world (the
points of the cloud with stamp `t` are points of the world as seen from the lidar at that time), then the global map consists of
points of the world, each at the same place `G.apply w` whenever it was seen, and every point of every cloud kept in the map is there. -/
theorem C142_map {X G : Iso ℝ} (hX : Rigid X) {d r : ℝ} {knn : List (Fin 3 → ℝ) → (Fin 3 → ℝ) → Nat → List Nat}
    {voxel : List (Fin 3 → ℝ) → List (Fin 3 → ℝ)} {lidarFrame mapFrame method : String} {number : Int} {voxelGlobal : Bool}
    {c : Cfg} {s0 s : St Mapping.Pose (Fin 3 → ℝ) (Fin 3 → ℝ)} {h : List (Event Mapping.Pose (Fin 3 → ℝ))}
    (h0 : create method number false voxelGlobal = .ok (c, s0)) (hr : Reach (realOps X d r knn voxel lidarFrame mapFrame) c s0 h s)
    (hf : Fresh h) (B : Int → Iso ℝ) {W : Set (Fin 3 → ℝ)}
    (hpath : ∀ cloud ∈ cloudsOf h, ∀ b, lastFor (posesOf h) cloud.stamp = some b → b.orientation.Unit ∧ b.toTransform = G * B cloud.stamp)
    (hworld : ∀ cloud ∈ cloudsOf h, ∀ x ∈ cloud.points, (B cloud.stamp * X).apply x ∈ W)
    (now : Int) (hne : s.map ≠ []) (hnow : ∀ t, (OMap.find s.map t).isSome → t ≤ now) :
    ∃ points, (handle (realOps X d r knn voxel lidarFrame mapFrame) c (.globalMap now) s).2.globals =
        s.globals ++ [⟨now, mapFrame, points⟩] ∧
      (∀ p ∈ points, ∃ w ∈ W, p = G.apply w) ∧
      (∀ t f, OMap.find s.map t = some f → f.cloud ∈ cloudsOf h ∧ f.cloud.stamp = t ∧
        ∀ x ∈ f.cloud.points, G.apply ((B t * X).apply x) ∈ points) := by
  obtain ⟨frames, -, hmem, hg⟩ := C83_global_map_points_partial h0 hr now hne hnow
  have key : ∀ t f, OMap.find s.map t = some f → f.cloud ∈ cloudsOf h ∧ f.cloud.stamp = t ∧ f.stamp = t ∧
      ∀ x, f.pose.orientation.toMatrix.mulVec x + f.pose.position = G.apply ((B t * X).apply x) := by
    intro t f hft
    obtain ⟨h1, h2, h3, h4⟩ := C35_latest_pose h0 hr hf t f hft
    refine ⟨h3, h2, h1, fun x => ?_⟩
    cases hl : lastFor (posesOf h) t with
    | none => rw [hl] at h4; cases h4
    | some b =>
      rw [hl] at h4
      obtain ⟨hb, he⟩ := hpath f.cloud h3 b (by rw [h2]; exact hl)
      have hp : f.pose = Mapping.Pose.ofTransform (b.toTransform * X) := by
        injection h4
      have hT := Serpent.Pose.toTransform_ofTransform ((Serpent.Pose.rigid hb).mul hX)
      rw [← hp, he, h2] at hT
      rw [← Iso.apply_mul, ← Iso.mul_assoc, ← hT]
      rfl
  refine ⟨_, hg, ?_, ?_⟩
  · intro p hp
    obtain ⟨f, hf', hp⟩ := List.mem_flatMap.1 hp
    obtain ⟨x, hx, rfl⟩ := List.mem_map.1 hp
    obtain ⟨k1, k2, -, k4⟩ := key f.stamp f ((hmem f).1 hf')
    refine ⟨_, ?_, k4 x⟩
    have := hworld f.cloud k1 x hx
    rwa [k2] at this
  · intro t f hft
    obtain ⟨k1, k2, k3, k4⟩ := key t f hft
    refine ⟨k1, k2, fun x hx => List.mem_flatMap.2 ⟨f, (hmem f).2 (by rw [k3]; exact hft), ?_⟩⟩
    exact List.mem_map.2 ⟨x, hx, k4 x⟩

open Mapping in
/-- C142. The local map: under the same conditions, every point of the local map that is published for a cloud is a point of the world
as seen from the lidar at the time of the cloud, whatever frame it was taken from. -/
theorem C142_local_map {X G : Iso ℝ} (hX : Rigid X) (hG : Rigid G) {d r : ℝ}
    {knn : List (Fin 3 → ℝ) → (Fin 3 → ℝ) → Nat → List Nat}
    {voxel : List (Fin 3 → ℝ) → List (Fin 3 → ℝ)} {lidarFrame mapFrame method : String} {number : Int} {voxelGlobal : Bool}
    {c : Cfg} {s0 s : St Mapping.Pose (Fin 3 → ℝ) (Fin 3 → ℝ)} {h : List (Event Mapping.Pose (Fin 3 → ℝ))}
    (h0 : create method number false voxelGlobal = .ok (c, s0)) (hr : Reach (realOps X d r knn voxel lidarFrame mapFrame) c s0 h s)
    {cloud : Cloud (Fin 3 → ℝ)} {path : List (Int × Mapping.Pose)} (hf : Fresh (h ++ [.update cloud path]))
    (B : Int → Iso ℝ) (hB : ∀ t, Rigid (B t)) {W : Set (Fin 3 → ℝ)}
    (hpath : ∀ cl ∈ cloudsOf (h ++ [.update cloud path]), ∀ b, lastFor (posesOf (h ++ [.update cloud path])) cl.stamp = some b →
      b.orientation.Unit ∧ b.toTransform = G * B cl.stamp)
    (hworld : ∀ cl ∈ cloudsOf (h ++ [.update cloud path]), ∀ x ∈ cl.points, (B cl.stamp * X).apply x ∈ W)
    (hl : (lastFor path cloud.stamp).isSome)
    (hok : (handle (realOps X d r knn voxel lidarFrame mapFrame) c (.update cloud path) s).1 = .ok ()) :
    ∃ out, (handle (realOps X d r knn voxel lidarFrame mapFrame) c (.update cloud path) s).2.locals = s.locals ++ [out] ∧
      out.stamp = cloud.stamp ∧ out.frame = lidarFrame ∧ ∀ p ∈ out.points, (B cloud.stamp * X).apply p ∈ W := by
  obtain ⟨body, hbody⟩ := Option.isSome_iff_exists.1 hl
  have hposes : posesOf (h ++ [Event.update cloud path]) = posesOf h ++ path := by
    rw [posesOf_append]
    simp [posesOf]
  have hclouds : cloudsOf (h ++ [Event.update cloud path]) = cloudsOf h ++ [cloud] := by
    rw [cloudsOf_append]
    simp [cloudsOf]
  have hlast : lastFor (posesOf (h ++ [Event.update cloud path])) cloud.stamp = some body := by
    rw [hposes, lastFor_append, hbody]
    rfl
  obtain ⟨hu, he⟩ := hpath cloud (by rw [hclouds]; simp) body hlast
  obtain ⟨out, fs, h1, h2, h3, h4, h5, h6, -⟩ := C84_local_map_in_lidar_frame hX h0 hr hbody hu hok
  refine ⟨out, h1, h2, h3, ?_⟩
  have hr' := Reach.step (.update cloud path) hr (by rw [hok]; intro e; cases e)
  intro p hp
  rw [h6] at hp
  obtain ⟨f, hf', hp⟩ := List.mem_flatMap.1 hp
  obtain ⟨x, hx, rfl⟩ := List.mem_map.1 hp
  obtain ⟨hfind, -⟩ := h4 f hf'
  obtain ⟨-, k2, k3, k4⟩ := C35_latest_pose h0 hr' hf f.stamp f hfind
  cases hlf : lastFor (posesOf (h ++ [Event.update cloud path])) f.stamp with
  | none => rw [hlf] at k4; cases k4
  | some b =>
    rw [hlf] at k4
    obtain ⟨hb, heb⟩ := hpath f.cloud k3 b (by rw [k2]; exact hlf)
    have hpz : f.pose = Mapping.Pose.ofTransform (b.toTransform * X) := by
      injection k4
    have hT := Serpent.Pose.toTransform_ofTransform ((Serpent.Pose.rigid hb).mul hX)
    rw [← hpz, heb, k2] at hT
    have hw := hworld f.cloud k3 x hx
    rw [k2] at hw
    have hcan : B cloud.stamp * X * ((G * B cloud.stamp * X)⁻¹ * (G * B f.stamp * X)) = B f.stamp * X := by
      have hBX := (hB cloud.stamp).mul hX
      rw [Iso.mul_assoc G, hG.mul_inv_rev hBX]
      simp only [← Iso.mul_assoc]
      rw [hBX.mul_inv, Iso.one_mul, hG.inv_mul, Iso.one_mul]
    rw [he, hT, ← Iso.apply_mul, hcan]
    exact hw

/-! ### Concrete cases -/

/-- A body that moves along the x axis, one metre from state to state. -/
def along (k : ℕ) : Iso ℝ := ⟨1, ![k, 0, 0]⟩

theorem along_rigid (k : ℕ) : Rigid (along k) := ⟨by simp [along], by simp [along]⟩

-- three points that are not on a line
example : NotCollinear {![1, 0, 0], ![0, 1, 0], ![0, 0, 1]} := by
  refine ⟨![1, 0, 0], by simp, ![0, 1, 0], by simp, ![0, 0, 1], by simp, fun e => ?_⟩
  have := congrFun e 0
  simp [cross_apply] at this

/-- The motion of the lidar, mounted turned and away from the origin of the body. -/
noncomputable def lidarMotion (k : ℕ) : Iso ℝ := (along k * quarter)⁻¹ * (along (k + 1) * quarter)

theorem lidarMotion_exact (k : ℕ) : IsSensorMotion (along k) (along (k + 1)) quarter (lidarMotion k) := by
  unfold IsSensorMotion lidarMotion
  rw [← Iso.mul_assoc, ((along_rigid k).mul sampleFrames_lidar.rigid).mul_inv, Iso.one_mul]

-- two alignments, and the third pose
example (P : Pose3) : ∃ a b c, odometryPoses sampleFrames P [lidarMotion 0, lidarMotion 1] = .ok [a, b, c] ∧
    isoOf c = isoOf P * (along 0)⁻¹ * along 2 := by
  obtain ⟨l, h1, h2, h3⟩ := C142_trajectory sampleFrames_lidar along along_rigid [lidarMotion 0, lidarMotion 1] (by
    intro k T hk
    match k with
    | 0 => simp at hk; subst hk; exact lidarMotion_exact 0
    | 1 => simp at hk; subst hk; exact lidarMotion_exact 1
    | k + 2 => simp at hk) P
  match l, h2 with
  | [a, b, c], _ => exact ⟨a, b, c, h1, h3 2 c rfl⟩

example := C142_factors sampleFrames_lidar (along_rigid 3) (along_rigid 4) (lidarMotion_exact 3)

-- the factors of ten alignments, met by the true poses
example : ∃ m : ℕ → PoseMsg, ∀ A : ℕ → Iso ℝ, (A 0 = along 0 ∧ ∀ k < 10, A k * isoOf (registrationPose (m k)) = A (k + 1)) ↔
    ∀ k ≤ 10, A k = along 0 * (along 0)⁻¹ * along k := by
  choose m hm using fun k => C142_factors sampleFrames_lidar (along_rigid k) (along_rigid (k + 1)) (lidarMotion_exact k)
  exact ⟨m, fun A => C142_graph sampleFrames_lidar along along_rigid 10 lidarMotion (fun k _ => lidarMotion_exact k) m
    (fun k _ => (hm k).1) (along 0) A⟩

example := C142_path "body" 0 [(10, ⟨1, ![1, 2, 3]⟩), (20, ⟨quarter.R, 0⟩)] (by
  intro s hs
  simp only [List.mem_cons, List.not_mem_nil, or_false] at hs
  rcases hs with rfl | rfl
  · exact ⟨by simp [isoOf], by simp [isoOf]⟩
  · exact ⟨sampleFrames_lidar.rigid.orthogonal, sampleFrames_lidar.rigid.det⟩)

open MappingGeometryWitness in
/-- The body of the concrete case of the mapping node: at the origin at time 10, at `x = 1` from time 20 on. -/
noncomputable def bodyAt (t : Int) : Iso ℝ := if t < 20 then 1 else ⟨1, ![1, 0, 0]⟩

theorem bodyAt_rigid (t : Int) : Rigid (bodyAt t) := by
  unfold bodyAt
  split
  · exact Rigid.one
  · exact ⟨by simp, by simp⟩

theorem at_transform (x : ℝ) : (MappingGeometryWitness.at_ x).toTransform = ⟨1, ![x, 0, 0]⟩ := by
  unfold Mapping.Pose.toTransform MappingGeometryWitness.at_
  rw [Quat.toMatrix_id]

theorem zero_iso : (⟨1, ![0, 0, 0]⟩ : Iso ℝ) = 1 := by
  ext1
  · rfl
  · funext i
    fin_cases i <;> rfl

open MappingGeometryWitness Mapping in
-- the global map of a point
example := C142_map (W := {![1, 0, 0]}) (G := 1) Rigid.one created reached
  ⟨by simp [cloudsOf, first], by
    intro cloud path hm
    simp only [List.mem_cons, List.not_mem_nil, or_false, first, Event.update.injEq] at hm
    rcases hm with ⟨rfl, rfl⟩
    simp⟩ bodyAt
  (by
    intro cl hc b hb
    simp only [cloudsOf, first, List.filterMap_cons, List.filterMap_nil, List.mem_cons, List.not_mem_nil, or_false] at hc
    subst hc
    simp [posesOf, first, lastFor] at hb
    subst hb
    exact ⟨unit_at 0, by rw [at_transform, Iso.one_mul]; simp [bodyAt]; exact zero_iso⟩)
  (by
    intro cl hc x hx
    simp only [cloudsOf, first, List.filterMap_cons, List.filterMap_nil, List.mem_cons, List.not_mem_nil, or_false] at hc
    subst hc
    simp at hx
    subst hx
    simp [bodyAt, Iso.mul_one, Iso.apply_one])
  30
  (by
    have : (handle O init.1 first init.2).2.map = [(10, ⟨O.toLidar (at_ 0), 10, ⟨10, "lidar", [![1, 0, 0]]⟩⟩)] := rfl
    rw [this]; simp)
  (by
    have : (handle O init.1 first init.2).2.map = [(10, ⟨O.toLidar (at_ 0), 10, ⟨10, "lidar", [![1, 0, 0]]⟩⟩)] := rfl
    rw [this]
    intro t ht
    simp only [OMap.find_cons, OMap.find_nil] at ht
    split at ht
    · rename_i e; have : t = (10 : Int) := e; omega
    · simp at ht)

open MappingGeometryWitness Mapping in
-- a point seen at both times
example := C142_local_map (W := {![1, 0, 0]}) (G := 1) Rigid.one Rigid.one created reached
  (cloud := ⟨20, "lidar", [![0, 0, 0]]⟩) (path := [(20, at_ 1)])
  ⟨by simp [cloudsOf, first], by
    intro cloud path hm
    simp only [List.mem_append, List.mem_cons, List.not_mem_nil, or_false, first, Event.update.injEq] at hm
    rcases hm with ⟨rfl, rfl⟩ | ⟨rfl, rfl⟩ <;> simp⟩ bodyAt bodyAt_rigid
  (by
    intro cl hc b hb
    simp only [cloudsOf, first, List.cons_append, List.nil_append, List.filterMap_cons, List.filterMap_nil, List.mem_cons,
      List.not_mem_nil, or_false] at hc
    rcases hc with rfl | rfl <;> simp [posesOf, first, lastFor] at hb <;> subst hb
    · exact ⟨unit_at 0, by rw [at_transform, Iso.one_mul]; simp [bodyAt]; exact zero_iso⟩
    · exact ⟨unit_at 1, by rw [at_transform, Iso.one_mul]; simp [bodyAt]⟩)
  (by
    intro cl hc x hx
    simp only [cloudsOf, first, List.cons_append, List.nil_append, List.filterMap_cons, List.filterMap_nil, List.mem_cons,
      List.not_mem_nil, or_false] at hc
    rcases hc with rfl | rfl <;> simp at hx <;> subst hx
    · simp [bodyAt, Iso.mul_one, Iso.apply_one]
    · simp [bodyAt, Iso.mul_one, Iso.apply])
  (by simp [lastFor])
  (C34_in_order_publishes (O := O) someKnn_correct created reached rfl
    ⟨by simp [cloudsOf, first], by
      intro cloud path hm
      simp only [List.mem_append, List.mem_cons, List.not_mem_nil, or_false, first, Event.update.injEq] at hm
      rcases hm with ⟨rfl, rfl⟩ | ⟨rfl, rfl⟩ <;> simp⟩ (body := at_ 1) (by simp [lastFor]) (by simp [cloudsOf, first])).1

end Motion

end Serpent
