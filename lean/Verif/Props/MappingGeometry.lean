import Verif.Props.Mapping

/-!
# Properties of the mapping node in space (C32, C84)
-/

namespace Serpent

open EigenExt Mapping

/-- Distance of two points. -/
noncomputable def distance (p q : Fin 3 → ℝ) : ℝ := Real.sqrt (∑ i, (p i - q i) ^ 2)

variable {bodyToLidar : Iso ℝ} {distanceThreshold rotationThreshold : ℝ}
  {knn : List (Fin 3 → ℝ) → (Fin 3 → ℝ) → Nat → List Nat} {voxel : List (Fin 3 → ℝ) → List (Fin 3 → ℝ)}
  {lidarFrame mapFrame : String} {c : Cfg} {s0 s : St Pose (Fin 3 → ℝ) (Fin 3 → ℝ)} {h : List (Event Pose (Fin 3 → ℝ))}
  {method : String} {number : Int} {voxelLocal voxelGlobal : Bool}

theorem Pose.rigid {p : Pose} (hp : p.orientation.Unit) : Rigid p.toTransform :=
  ⟨Quat.toMatrix_orthogonal hp, Quat.toMatrix_det hp⟩

theorem Pose.toTransform_ofTransform {T : Iso ℝ} (hT : Rigid T) : (Pose.ofTransform T).toTransform = T := by
  unfold Pose.ofTransform Pose.toTransform
  ext1
  · exact Quat.toMatrix_ofMatrix ⟨hT.orthogonal, hT.det⟩
  · rfl

theorem Pose.ofTransform_unit {T : Iso ℝ} (hT : Rigid T) : (Pose.ofTransform T).orientation.Unit :=
  Quat.ofMatrix_unit ⟨hT.orthogonal, hT.det⟩

theorem shouldAddToMap_iff {new previous : Pose} (h1 : new.orientation.Unit) (h2 : previous.orientation.Unit) :
    shouldAddToMap distanceThreshold rotationThreshold new previous = true ↔
      distance new.toTransform.t previous.toTransform.t > distanceThreshold ∨
      rotationAngle (new.toTransform.R * previous.toTransform.R.transpose) > rotationThreshold := by
  have h3 : Real.sqrt ((new.position - previous.position) 0 * (new.position - previous.position) 0 +
      (new.position - previous.position) 1 * (new.position - previous.position) 1 +
      (new.position - previous.position) 2 * (new.position - previous.position) 2) =
      distance new.toTransform.t previous.toTransform.t := by
    unfold distance
    rw [Fin.sum_univ_three]
    simp only [Pi.sub_apply, sq]
    rfl
  unfold shouldAddToMap
  simp only [decide_eq_true_eq]
  rw [h3, Quat.angularDistance_eq h1 h2]
  rfl

/-- Frames of the map are at poses of paths. -/
theorem reach_pose {P V X : Type} {O : Ops P V X} {c : Cfg} {s0 s : St P V X} {h : List (Event P X)}
    (h0 : create method number voxelLocal voxelGlobal = .ok (c, s0)) (hr : Reach O c s0 h s) :
    ∀ t f, OMap.find s.map t = some f → ∃ b, (t, b) ∈ posesOf h ∧ f.pose = O.toLidar b := by
  obtain ⟨hi0, _, hm0, _⟩ := inv_init O h0
  induction hr with
  | init => intro t f hf; rw [hm0] at hf; cases hf
  | @step h s e hr hu ih =>
    obtain ⟨hi, _⟩ := reach_inv O hr hi0
    intro t f hf
    rw [posesOf_append]
    have old : ∀ g, OMap.find s.map t = some g → f.pose = g.pose →
        ∃ b, (t, b) ∈ posesOf h ++ posesOf [e] ∧ f.pose = O.toLidar b := by
      intro g hg e
      obtain ⟨b, hb, h⟩ := ih t g hg
      exact ⟨b, List.mem_append_left _ hb, e.trans h⟩
    cases e with
    | update cloud path =>
      rcases mapUpdate_spec O (c := c) (cloud := cloud) (path := path) hi with ⟨r, s1, _, sp, h1, _⟩ | ⟨hub, _⟩
      swap
      · exact absurd hub hu
      change OMap.find (mapUpdate O c cloud path s).2.map t = some f at hf
      rw [h1] at hf
      have hpath : posesOf [Event.update cloud path] = path := by simp [posesOf]
      by_cases ht : t = cloud.stamp
      · subst ht
        cases ho : OMap.find s.map cloud.stamp with
        | none =>
          obtain ⟨b, hb, rfl⟩ := sp.shape f hf ho
          exact ⟨b, List.mem_append_right _ (by rw [hpath]; exact hb), rfl⟩
        | some g =>
          rw [sp.present g ho] at hf
          cases hf
          exact old _ ho rfl
      · rw [sp.others t ht] at hf
        cases ho : OMap.find s.map t with
        | none => rw [ho] at hf; cases hf
        | some g =>
          rw [ho] at hf
          cases hf
          cases hl : lastFor path t with
          | none => exact old g ho (by simp [correct, hl])
          | some b =>
            refine ⟨b, List.mem_append_right _ ?_, by simp [correct, hl]⟩
            rw [hpath]
            unfold lastFor at hl
            cases hx : (path.filter (fun e => e.1 = t)).getLast? with
            | none => rw [hx] at hl; cases hl
            | some e =>
              rw [hx] at hl
              cases hl
              have hmem := List.mem_filter.1 (List.mem_of_getLast? hx)
              have : e.1 = t := by simpa using hmem.2
              rw [← this]
              exact hmem.1
    | poseGraph => exact old f hf rfl
    | globalMap now => exact old f hf rfl

/-- **C32.** A new cloud is added to the map exactly if the map is empty, or the distance between its lidar pose and the pose
of the latest map frame exceeds the distance threshold, or the angle of the rotation between them exceeds the rotation
threshold. The pose of the latest frame is the one that holds after the corrections listed before the cloud's own pose. The
frame added has the cloud, its stamp, and the pose of the lidar. -/
theorem C32_added_iff_moved (hbl : Rigid bodyToLidar)
    (h0 : create method number voxelLocal voxelGlobal = .ok (c, s0))
    (hr : Reach (realOps bodyToLidar distanceThreshold rotationThreshold knn voxel lidarFrame mapFrame) c s0 h s)
    (hunit : ∀ e ∈ posesOf h, e.2.orientation.Unit)
    {cloud : Cloud (Fin 3 → ℝ)} {pre post : List (Int × Pose)} {body : Pose}
    (hpre : ∀ e ∈ pre, e.1 ≠ cloud.stamp ∧ e.2.orientation.Unit) (hpost : ∀ e ∈ post, e.1 ≠ cloud.stamp)
    (hbody : body.orientation.Unit) (hnew : cloud.stamp ∉ (cloudsOf h).map (·.stamp))
    (hu : (handle (realOps bodyToLidar distanceThreshold rotationThreshold knn voxel lidarFrame mapFrame) c
      (.update cloud (pre ++ (cloud.stamp, body) :: post)) s).1 ≠ .ub) :
    let s' := (handle (realOps bodyToLidar distanceThreshold rotationThreshold knn voxel lidarFrame mapFrame) c
      (.update cloud (pre ++ (cloud.stamp, body) :: post)) s).2
    let lidar := body.toTransform * bodyToLidar
    ((OMap.find s'.map cloud.stamp).isSome ↔
      s.map = [] ∨ ∃ t f, OMap.find s.map t = some f ∧ (∀ k, (OMap.find s.map k).isSome → k ≤ t) ∧
        let last := match lastFor pre t with
          | some b => b.toTransform * bodyToLidar
          | none => f.pose.toTransform
        (distance lidar.t last.t > distanceThreshold ∨ rotationAngle (lidar.R * last.R.transpose) > rotationThreshold)) ∧
    (∀ f, OMap.find s'.map cloud.stamp = some f → f.cloud = cloud ∧ f.stamp = cloud.stamp ∧ f.pose.toTransform = lidar) := by
  intro s' lidar
  set O := realOps bodyToLidar distanceThreshold rotationThreshold knn voxel lidarFrame mapFrame with hO
  obtain ⟨hi, _⟩ := reach_inv O hr (inv_init O h0).1
  have hnone := reach_new h0 hr hnew
  have hpre' : lastFor pre cloud.stamp = none := lastFor_eq_none.2 (fun e he => (hpre e he).1)
  have hpost' : lastFor post cloud.stamp = none := lastFor_eq_none.2 hpost
  rcases mapUpdate_spec O (c := c) (cloud := cloud) (path := pre ++ (cloud.stamp, body) :: post) hi with
    ⟨r, s1, hloop, sp, h1, _⟩ | ⟨hub, _⟩
  swap
  · exact absurd hub hu
  have hs' : s'.map = s1.map := h1
  have hadd := pathLoop_added O hi hpre' hpost' hnone hloop
  have hlr : Rigid lidar := (Pose.rigid hbody).mul hbl
  have hlid : ∀ b : Pose, b.orientation.Unit → (O.toLidar b).toTransform = b.toTransform * bodyToLidar ∧
      (O.toLidar b).orientation.Unit := by
    intro b hb
    have := (Pose.rigid hb).mul hbl
    exact ⟨Pose.toTransform_ofTransform this, Pose.ofTransform_unit this⟩
  have hframe : ∀ t f, OMap.find s.map t = some f → f.pose.orientation.Unit := by
    intro t f hf
    obtain ⟨b, hb, e⟩ := reach_pose h0 hr t f hf
    rw [e]
    exact (hlid b (hunit _ hb)).2
  have hlast : ∀ t b, lastFor pre t = some b → b.orientation.Unit := by
    intro t b hl
    unfold lastFor at hl
    cases hx : (pre.filter (fun e => e.1 = t)).getLast? with
    | none => rw [hx] at hl; cases hl
    | some e =>
      rw [hx] at hl
      cases hl
      exact (hpre e (List.mem_filter.1 (List.mem_of_getLast? hx)).1).2
  have hfar : ∀ t f, OMap.find s.map t = some f → (O.far (O.toLidar body) (correct O pre t f).pose = true ↔
      (let last := match lastFor pre t with
          | some b => b.toTransform * bodyToLidar
          | none => f.pose.toTransform
        (distance lidar.t last.t > distanceThreshold ∨ rotationAngle (lidar.R * last.R.transpose) > rotationThreshold))) := by
    intro t f hf
    have hun : (correct O pre t f).pose.orientation.Unit := by
      unfold correct
      cases hl : lastFor pre t with
      | none => exact hframe t f hf
      | some b => exact (hlid b (hlast t b hl)).2
    have hiso : (correct O pre t f).pose.toTransform = match lastFor pre t with
          | some b => b.toTransform * bodyToLidar
          | none => f.pose.toTransform := by
      unfold correct
      cases hl : lastFor pre t with
      | none => rfl
      | some b => exact (hlid b (hlast t b hl)).1
    have := shouldAddToMap_iff (distanceThreshold := distanceThreshold) (rotationThreshold := rotationThreshold)
      (hlid body hbody).2 hun
    rw [(hlid body hbody).1, hiso] at this
    exact this
  rw [hs', hadd]
  constructor
  · constructor
    · intro hsome
      split at hsome
      · rename_i hall
        by_cases he : s.map = []
        · exact .inl he
        · right
          cases hg : s.map.getLast? with
          | none => exact absurd (List.getLast?_eq_none_iff.1 hg) he
          | some e =>
            obtain ⟨t, f⟩ := e
            have hf := OMap.find_of_mem hi.sorted (List.mem_of_getLast? hg)
            have hmax : ∀ k, (OMap.find s.map k).isSome → k ≤ t := by
              intro k hk
              obtain ⟨v, hv⟩ := OMap.find_isSome_iff.1 hk
              obtain ⟨l, hl⟩ := List.getLast?_eq_some_iff.1 hg
              have hso := hi.sorted
              rw [hl] at hso hv
              rcases List.mem_append.1 hv with hm | hm
              · exact le_of_lt ((List.pairwise_append.1 hso).2.2 _ hm _ (List.mem_singleton.2 rfl))
              · rw [List.mem_singleton] at hm
                cases hm
                exact le_refl _
            exact ⟨t, f, hf, hmax, (hfar t f hf).1 (hall t f hf hmax)⟩
      · cases hsome
    · rintro (he | ⟨t, f, hf, hmax, hh⟩)
      · rw [if_pos]
        · rfl
        · intro t f hf
          rw [he] at hf
          cases hf
      · rw [if_pos]
        · rfl
        · intro u g hg humax
          have : u = t := le_antisymm (hmax u (by rw [hg]; rfl)) (humax t (by rw [hf]; rfl))
          subst this
          rw [hf] at hg
          cases hg
          exact (hfar u f hf).2 hh
  · intro f hf
    split at hf
    · cases hf
      exact ⟨rfl, rfl, (hlid body hbody).1⟩
    · cases hf

/-- **C84.** A published local map has the stamp of the cloud and is in the lidar frame at that time: moved to the map by the
lidar pose of the cloud, its points are (before voxel filtering) the points of frames of the map, moved by their poses in
the map, one frame after another. In particular the points of a frame at the pose of the cloud are unchanged. -/
theorem C84_local_map_in_lidar_frame (hbl : Rigid bodyToLidar)
    (h0 : create method number false voxelGlobal = .ok (c, s0))
    (hr : Reach (realOps bodyToLidar distanceThreshold rotationThreshold knn voxel lidarFrame mapFrame) c s0 h s)
    {cloud : Cloud (Fin 3 → ℝ)} {path : List (Int × Pose)} {body : Pose}
    (hl : lastFor path cloud.stamp = some body) (hbody : body.orientation.Unit)
    (hok : (handle (realOps bodyToLidar distanceThreshold rotationThreshold knn voxel lidarFrame mapFrame) c
      (.update cloud path) s).1 = .ok ()) :
    let s' := (handle (realOps bodyToLidar distanceThreshold rotationThreshold knn voxel lidarFrame mapFrame) c
      (.update cloud path) s).2
    ∃ (out : Cloud (Fin 3 → ℝ)) (fs : List (Frame Pose (Fin 3 → ℝ))), s'.locals = s.locals ++ [out] ∧ out.stamp = cloud.stamp ∧ out.frame = lidarFrame ∧
      (∀ f ∈ fs, OMap.find s'.map f.stamp = some f ∧ f.stamp ≤ cloud.stamp) ∧
      out.points.map (body.toTransform * bodyToLidar).apply =
        fs.flatMap (fun f => f.cloud.points.map f.pose.toTransform.apply) ∧
      out.points = fs.flatMap (fun f =>
        f.cloud.points.map ((body.toTransform * bodyToLidar)⁻¹ * f.pose.toTransform).apply) ∧
      (∀ f ∈ fs, f.pose.toTransform = body.toTransform * bodyToLidar →
        f.cloud.points.map ((body.toTransform * bodyToLidar)⁻¹ * f.pose.toTransform).apply = f.cloud.points) := by
  intro s'
  set O := realOps bodyToLidar distanceThreshold rotationThreshold knn voxel lidarFrame mapFrame with hO
  obtain ⟨hi0, _, _, _, _, hvl, _⟩ := inv_init O h0
  obtain ⟨hi, _⟩ := reach_inv O hr hi0
  change (mapUpdate O c cloud path s).1 = .ok () at hok
  rcases mapUpdate_spec O (c := c) (cloud := cloud) (path := path) hi with
    ⟨r, s1, hloop, sp, h1, _, _, _, _, _, hout⟩ | ⟨hub, _⟩
  swap
  · rw [hub] at hok; cases hok
  have hs' : s'.map = s1.map := h1
  have hrig := (Pose.rigid hbody).mul hbl
  have hlid : (O.toLidar body).toTransform = body.toTransform * bodyToLidar := Pose.toTransform_ofTransform hrig
  rw [hl] at hout
  dsimp only at hout
  have key : ∀ fs : List (Frame Pose (Fin 3 → ℝ)), (∀ f ∈ fs, f ∈ s1.map.map (·.2) ∧ f.stamp ≤ cloud.stamp) →
      ∀ region, region = (⟨cloud.stamp, lidarFrame,
        fs.flatMap (fun f => f.cloud.points.map (O.move (O.toLidar body) f.pose))⟩ : Cloud (Fin 3 → ℝ)) →
      s'.locals = s.locals ++ [if c.voxelLocal then { region with points := O.voxel region.points } else region] →
      ∃ (out : Cloud (Fin 3 → ℝ)) (fs : List (Frame Pose (Fin 3 → ℝ))), s'.locals = s.locals ++ [out] ∧ out.stamp = cloud.stamp ∧ out.frame = lidarFrame ∧
      (∀ f ∈ fs, OMap.find s'.map f.stamp = some f ∧ f.stamp ≤ cloud.stamp) ∧
      out.points.map (body.toTransform * bodyToLidar).apply =
        fs.flatMap (fun f => f.cloud.points.map f.pose.toTransform.apply) ∧
      out.points = fs.flatMap (fun f =>
        f.cloud.points.map ((body.toTransform * bodyToLidar)⁻¹ * f.pose.toTransform).apply) ∧
      (∀ f ∈ fs, f.pose.toTransform = body.toTransform * bodyToLidar →
        f.cloud.points.map ((body.toTransform * bodyToLidar)⁻¹ * f.pose.toTransform).apply = f.cloud.points) := by
    intro fs hfs region hreg hloc
    rw [hvl] at hloc
    have hmove : ∀ f : Frame Pose (Fin 3 → ℝ), O.move (O.toLidar body) f.pose =
        ((body.toTransform * bodyToLidar)⁻¹ * f.pose.toTransform).apply := by
      intro f
      rw [← hlid]
      rfl
    refine ⟨region, fs, hloc, by rw [hreg], by rw [hreg], ?_, ?_, ?_, ?_⟩
    · intro f hf
      obtain ⟨hm, hle⟩ := hfs f hf
      obtain ⟨e, he, rfl⟩ := List.mem_map.1 hm
      have hfind := OMap.find_of_mem sp.inv.sorted he
      rw [hs', (sp.inv.stamp _ _ hfind).1]
      exact ⟨hfind, by rw [← (sp.inv.stamp _ _ hfind).1]; exact hle⟩
    · rw [hreg]
      dsimp only
      rw [List.map_flatMap]
      congr 1
      funext f
      rw [List.map_map, hmove]
      congr 1
      funext p
      show (body.toTransform * bodyToLidar).apply (((body.toTransform * bodyToLidar)⁻¹ * f.pose.toTransform).apply p) = _
      rw [← Iso.apply_mul, ← Iso.mul_assoc, hrig.mul_inv, Iso.one_mul]
    · rw [hreg]
      dsimp only
      congr 1
      funext f
      rw [hmove]
    · intro f _ he
      rw [he, hrig.inv_mul]
      have : (1 : Iso ℝ).apply = fun p => p := funext Iso.apply_one
      rw [this]
      simp
  cases hm : c.method with
  | past =>
    rw [hm] at hout
    dsimp only at hout
    obtain ⟨hx1, hx2⟩ := extractPast_spec O sp.inv (n := c.number) (pose := O.toLidar body) (stamp := cloud.stamp)
    by_cases hex : ∃ t, (OMap.find s1.map t).isSome ∧ t ≤ cloud.stamp
    · obtain ⟨fs, hfs, hx⟩ := hx2 hex
      rw [hx] at hout
      exact key fs hfs.member _ rfl hout.2
    · rw [hx1 (fun t ht => by by_contra hlt; exact hex ⟨t, ht, not_lt.1 hlt⟩)] at hout
      rw [hout] at hok
      cases hok
  | nearby =>
    rw [hm] at hout
    dsimp only at hout
    cases hx : extractNearby O s1 c.number (O.toLidar body) cloud.stamp with
    | ub => rw [hx] at hout; rw [hout] at hok; cases hok
    | throws => rw [hx] at hout; rw [hout.1] at hok; cases hok
    | ok region =>
      rw [hx] at hout
      obtain ⟨fs, hfs, hreg⟩ := extractNearby_members O sp.inv hx
      exact key fs hfs region hreg hout.2

/-- **C84.** If the path has no pose for the cloud (in particular if it is empty), no local map is published and, if the update
is not undefined, the callback throws. -/
theorem C84_no_pose_no_map {P V X : Type} {O : Ops P V X} {c : Cfg} {s0 s : St P V X} {h : List (Event P X)}
    (h0 : create method number voxelLocal voxelGlobal = .ok (c, s0)) (hr : Reach O c s0 h s)
    {cloud : Cloud X} {path : List (Int × P)} (hno : ∀ e ∈ path, e.1 ≠ cloud.stamp)
    (hub : (handle O c (.update cloud path) s).1 ≠ .ub) :
    (handle O c (.update cloud path) s).1 = .throws ∧ (handle O c (.update cloud path) s).2.locals = s.locals := by
  obtain ⟨hi0, _⟩ := inv_init O h0
  obtain ⟨hi, _⟩ := reach_inv O hr hi0
  have hl : lastFor path cloud.stamp = none := by
    unfold lastFor
    rw [List.filter_eq_nil_iff.2 (fun e he => by simpa using hno e he)]
    rfl
  rcases mapUpdate_spec O (c := c) (cloud := cloud) (path := path) hi with
    ⟨r, s1, hloop, sp, h1, _, _, _, _, _, hout⟩ | ⟨h', _⟩
  · rw [hl] at hout
    exact hout
  · exact (hub h').elim

/-- **C83 (partial).** Every point of the published global map (not filtered) is a point of the cloud of a map frame, moved from
the lidar frame to the map by the pose of that frame, and all of them are there, frame after frame in the order of the
stamps. Missing: see `C83_fails_global_flag`. -/
theorem C83_global_map_points_partial (h0 : create method number false voxelGlobal = .ok (c, s0))
    (hr : Reach (realOps bodyToLidar distanceThreshold rotationThreshold knn voxel lidarFrame mapFrame) c s0 h s)
    (now : Int) (hne : s.map ≠ []) (hnow : ∀ t, (OMap.find s.map t).isSome → t ≤ now) :
    ∃ frames : List (Frame Pose (Fin 3 → ℝ)), frames.Pairwise (fun f g => f.stamp < g.stamp) ∧
      (∀ f, f ∈ frames ↔ OMap.find s.map f.stamp = some f) ∧
      (handle (realOps bodyToLidar distanceThreshold rotationThreshold knn voxel lidarFrame mapFrame) c (.globalMap now) s).2.globals =
        s.globals ++ [⟨now, mapFrame, frames.flatMap (fun f =>
          f.cloud.points.map (fun p => f.pose.orientation.toMatrix.mulVec p + f.pose.position))⟩] := by
  obtain ⟨frames, points, h1, h2, h3, h4⟩ := C83_global_map_partial h0 hr now hne hnow
  refine ⟨frames, h1, h2, ?_⟩
  rw [h4, h3]
  rfl

/-! ## Concrete cases -/

namespace MappingGeometryWitness

/-- Poses on the x axis. -/
def at_ (x : ℝ) : Pose := ⟨![x, 0, 0], Quat.id⟩
/-- A search that returns the places in order. -/
def someKnn (_ : List (Fin 3 → ℝ)) (_ : Fin 3 → ℝ) (k : Nat) : List Nat := List.range k

theorem someKnn_correct (l : List (Fin 3 → ℝ)) (q : Fin 3 → ℝ) (k : Nat) (hk : k ≤ l.length) :
    IsKnn ((fun _ _ => 0 : (Fin 3 → ℝ) → (Fin 3 → ℝ) → Nat) q) l k (someKnn l q k) := by
  refine ⟨by simp [someKnn], List.nodup_range, ?_, ?_, ?_⟩
  · intro i hi
    have := List.mem_range.1 hi
    omega
  · exact List.pairwise_of_forall (fun _ _ _ _ _ _ => le_refl _)
  · intro _ _ _ _ _ _ _ _; exact le_refl _

/-- The geometry of the cases: the lidar is at the body. -/
noncomputable def O : Ops Pose (Fin 3 → ℝ) (Fin 3 → ℝ) := realOps 1 1 1 someKnn id "lidar" "map"
/-- Configuration and initial state. -/
def init : Cfg × St Pose (Fin 3 → ℝ) (Fin 3 → ℝ) := (⟨.nearby, 5, false, false⟩, ⟨[], some [], [], [], [], [], []⟩)
theorem created : create "NEARBY" 5 false false = .ok init := by rfl
/-- A first cloud. -/
def first : Event Pose (Fin 3 → ℝ) := .update ⟨10, "lidar", [![1, 0, 0]]⟩ [(10, at_ 0)]

theorem reached : Reach O init.1 init.2 [first] (handle O init.1 first init.2).2 :=
  .step first .init (C35_nearby_never_undefined created .init rfl first)

theorem unit_at (x : ℝ) : (at_ x).orientation.Unit := Quat.Unit.id

-- C32 for a second cloud at `x`, with the first pose corrected to `y`
example (x y : ℝ) := C32_added_iff_moved Rigid.one created reached
  (by intro e he; simp [posesOf, first] at he; subst he; exact unit_at 0)
  (cloud := ⟨20, "lidar", [![2, 0, 0]]⟩) (pre := [(10, at_ y)]) (post := []) (body := at_ x)
  (by intro e he; simp at he; subst he; exact ⟨by simp, unit_at y⟩) (by simp) (unit_at x)
  (by simp [cloudsOf, first]) (C35_nearby_never_undefined created reached rfl _)

-- C84 for the same
example (x y : ℝ) := C84_local_map_in_lidar_frame Rigid.one created reached
  (cloud := ⟨20, "lidar", [![2, 0, 0]]⟩) (path := [(10, at_ y), (20, at_ x)]) (body := at_ x) (by simp [lastFor]) (unit_at x)
  (C34_in_order_publishes (O := O) someKnn_correct created reached rfl
    ⟨by simp [cloudsOf, first], by
      intro cloud path hm
      simp only [List.mem_append, List.mem_cons, List.not_mem_nil, or_false, first, Event.update.injEq] at hm
      rcases hm with ⟨rfl, rfl⟩ | ⟨rfl, rfl⟩ <;> simp⟩ (body := at_ x) (by simp [lastFor]) (by simp [cloudsOf, first])).1

-- no pose for the cloud
example := C84_no_pose_no_map created reached (cloud := ⟨20, "lidar", [![2, 0, 0]]⟩) (path := [(10, at_ 1)]) (by simp)
  (C35_nearby_never_undefined created reached rfl _)

-- the global map of the first cloud
example := C83_global_map_points_partial created reached 30
  (by
    have : (handle O init.1 first init.2).2.map = [(10, ⟨O.toLidar (at_ 0), 10, ⟨10, "lidar", [![1, 0, 0]]⟩⟩)] := rfl
    rw [this]; simp)
  (by
    have : (handle O init.1 first init.2).2.map = [(10, ⟨O.toLidar (at_ 0), 10, ⟨10, "lidar", [![1, 0, 0]]⟩⟩)] := rfl
    rw [this]
    intro t ht
    simp only [OMap.find_cons, OMap.find_nil] at ht
    split at ht
    · rename_i e; have : t = (10 : Int) := e; omega
    · simp at ht)

end MappingGeometryWitness

end Serpent
