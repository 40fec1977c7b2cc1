import Verif.Spec.Wiring
import Verif.Lemmas.Parameters

/-! # Lemmas for C131 -/

namespace Serpent

namespace Wiring

open Params

/-- A topic in the namespace of the system, with its name in the network. -/
def absolute (t : Port) : Port := ("/serpent/" ++ t.1, t.2)

theorem absolute_name {x y : String} (h : "/serpent/" ++ x = "/serpent/" ++ y) : x = y := by
  have := congrArg String.toList h
  simp only [String.toList_append, List.append_cancel_left_eq] at this
  exact String.toList_inj.1 this

/-! ### Names -/

/-- The names that the launch files remap. -/
def inputNames : List String := ["input/imu", "input/pointcloud", "input/stereo/left/image", "input/stereo/right/image",
  "input/stereo/left/camera_info", "input/stereo/right/camera_info", "input/barometer"]

theorem serpent_inj {x y : String} (h : "serpent/" ++ x = "serpent/" ++ y) : x = y := by
  have := congrArg String.toList h
  simp only [String.toList_append, List.append_cancel_left_eq] at this
  exact String.toList_inj.1 this

theorem lookup_eq_none_of {l : List (String × String)} {k : String} (h : k ∉ l.map Prod.fst) : l.lookup k = none := by
  induction l with
  | nil => rfl
  | cons x l ih =>
    obtain ⟨a, b⟩ := x
    simp only [List.map_cons, List.mem_cons, not_or] at h
    rw [List.lookup_cons, beq_false_of_ne h.1]
    exact ih h.2

theorem resolve_other (a : Topics) {x : String} (h : x ∉ inputNames) : resolve (inputRemaps a) x = "/serpent/" ++ x := by
  unfold resolve
  rw [lookup_eq_none_of]
  · rfl
  · have e : (inputRemaps a).map Prod.fst = inputNames.map ("serpent/" ++ ·) := by
      have : ["serpent/input/imu", "serpent/input/pointcloud", "serpent/input/stereo/left/image",
        "serpent/input/stereo/right/image", "serpent/input/stereo/left/camera_info", "serpent/input/stereo/right/camera_info",
        "serpent/input/barometer"] = inputNames.map ("serpent/" ++ ·) := by decide +kernel
      exact this
    rw [e]
    intro hm
    obtain ⟨y, hy, e⟩ := List.mem_map.1 hm
    exact h (serpent_inj e ▸ hy)

theorem resolve_nil (x : String) : resolve [] x = "/serpent/" ++ x := rfl

/-! ### What can be advertised -/

def frontMax : List Port :=
  [("frontend/deskewed_pointcloud", .cloud .any), ("frontend/imu_s2s", .imuArray), ("frontend/initial_odometry", .odometry),
    ("output/odometry", .odometry), ("output/pose", .pose)] ++
  [("stereo/left/image", .image), ("stereo/right/image", .image), ("stereo/left/camera_info", .cameraInfo),
    ("stereo/right/camera_info", .cameraInfo)] ++ [("frontend/barometer", .fluidPressure)]

def backMax : List Port :=
  [("optimisation/imu_biases", .imuBiases), ("optimisation/imu_transform", .transform), ("optimisation/odometry", .odometry),
    ("output/path", .path), ("optimisation/path_changes", .path)] ++ [("debug/stereo_points", .cloud .xyz)]

def lidarMax (u : Bool) : List Port :=
  [("filter/voxel_filtered_pointcloud", .cloud .any), ("filter/body_filtered_pointcloud", .cloud .any),
    ("filter/range_filtered_pointcloud", .cloud .any), ("filter/sor_filtered_pointcloud", .cloud .any),
    ("filter/filtered_pointcloud", .cloud .any), ("add_unit_vectors/pointcloud", .cloud .any),
    ("normal_estimation/pointcloud", .cloud (.normal u))]

def regMax (u : Bool) : List Port :=
  [("mapping/local_map", .cloud (.normal u)), ("output/global_map", .cloud (.normal u)), ("output/pose_graph", .poseGraph)] ++
  ([("registration/transform", .pose)] ++
  [("debug/previous_pointcloud", .cloud (.normal u)), ("debug/current_pointcloud", .cloud (.normal u)),
    ("debug/imu_guess_pointcloud", .cloud (.normal u)), ("debug/s2s_transformed_pointcloud", .cloud (.normal u)),
    ("debug/s2m_transformed_pointcloud", .cloud (.normal u))] ++
  [("debug/s2s_transformed_pointcloud_alt", .cloud (.normal u)), ("debug/s2m_transformed_pointcloud_alt", .cloud (.normal u))])

def stereoMax : List Port :=
  [("stereo/features", .features)] ++ [("stereo/statistics", .trackerStatistics)] ++
  [("stereo/left/extracted_keypoints/image", .image), ("stereo/right/extracted_keypoints/image", .image),
    ("stereo/left/sof_matches/image", .image), ("stereo/right/sof_matches/image", .image),
    ("stereo/stereo_filtered_matches/image", .image), ("stereo/new_matches/image", .image), ("stereo/tracked_matches/image", .image)] ++
  [("stereo/track_points", .cloud .xyz)]

def allMax (u : Bool) : List Port :=
  frontMax ++ (backMax ++ ([("formatter/formatted_pointcloud", .cloud .any)] ++ (lidarMax u ++ (regMax u ++ stereoMax))))

theorem nodup_allMax (u : Bool) : ((allMax u).map Prod.fst).Nodup := by
  cases u <;> decide +kernel

theorem allMax_not_input (u : Bool) : ∀ t ∈ allMax u, t.1 ∉ inputNames := by
  cases u <;> decide +kernel

theorem onlyIf_sublist (b : Bool) (l : List Port) : (onlyIf b l).Sublist l := by
  cases b
  · exact List.nil_sublist _
  · exact List.Sublist.refl _

theorem mem_onlyIf {b : Bool} {l : List Port} {t : Port} : t ∈ onlyIf b l ↔ b = true ∧ t ∈ l := by
  cases b <;> simp [onlyIf]

theorem frontend_sublist (f : FrontEnd) : (frontendComponent f).advertises.Sublist frontMax :=
  ((List.Sublist.refl _).append (onlyIf_sublist _ _)).append (onlyIf_sublist _ _)

theorem backend_sublist (b : BackEnd) : (backendComponent b).advertises.Sublist backMax :=
  (List.Sublist.refl _).append (onlyIf_sublist _ _)

theorem reg_sublist (r : Reg) :
    ((mappingComponent r.unit).advertises ++ (registrationComponent r).advertises).Sublist (regMax r.unit) :=
  (List.Sublist.refl _).append (((List.Sublist.refl _).append (onlyIf_sublist _ _)).append (onlyIf_sublist _ _))

theorem stereo_sublist (t : StereoTracking) : (stereoComponent t).advertises.Sublist stereoMax :=
  (((List.Sublist.refl _).append (onlyIf_sublist _ _)).append (onlyIf_sublist _ _)).append (onlyIf_sublist _ _)

/-! ### The links of the lidar pipeline -/

open Lidar Ros in
/-- The links, as a function of the options that are on or off. -/
def linksOf (v b r o s u : Bool) : List (Link Stage) :=
  let input := "frontend/deskewed_pointcloud"
  let st : List (Link Stage) × String :=
    if v || b || r || o || s then
      ((addStage s .sample finalTopic
        (addStage o .outliers (if s then "filter/sor_filtered_pointcloud" else finalTopic)
        (addStage r .range (if s || o then "filter/range_filtered_pointcloud" else finalTopic)
        (addStage b .body (if s || o || r then "filter/body_filtered_pointcloud" else finalTopic)
        (addStage v .voxel (if s || o || r || b then "filter/voxel_filtered_pointcloud" else finalTopic) ([], input)))))).1, finalTopic)
    else ([], input)
  let st := addStage u .unitVectors "add_unit_vectors/pointcloud" st
  st.1 ++ [⟨.normals, st.2, "normal_estimation/pointcloud"⟩]

open Lidar Ros in
theorem lidarNode_eq {c : FilterConfig} {cov point : String} {links : List (Link Stage)}
    (h : lidarNode c cov point = .ok links) :
    ∃ u, requiresUnitVectorsNamed cov point = .ok u ∧ links = linksOf c.voxel c.body c.range c.outliers c.sample u := by
  unfold lidarNode at h
  obtain ⟨u, hu, h⟩ := bind_eq_ok h
  refine ⟨u, hu, ?_⟩
  obtain ⟨st, hst, h⟩ := bind_eq_ok h
  injection h with h
  unfold linksOf
  split at hst
  · rename_i he
    obtain ⟨l, hl, hst⟩ := bind_eq_ok hst
    injection hst with hst
    unfold pointcloudFilter at hl
    dsimp only at hl
    split at hl
    · cases hl
    · split at hl
      · cases hl
      · injection hl with hl
        rw [← h, ← hst, ← hl]
        dsimp only
        rw [if_pos he]
  · rename_i he
    injection hst with hst
    rw [← h, ← hst]
    dsimp only
    rw [if_neg he]

theorem links_table : ∀ v b r o s u w : Bool,
    ((linksOf v b r o s u).flatMap fun l => (linkComponent w l).advertises).Sublist (lidarMax w) ∧
    (∀ l ∈ linksOf v b r o s u, l.input = "frontend/deskewed_pointcloud" ∨
      (l.input, Msg.cloud .any) ∈ (linksOf v b r o s u).flatMap fun l => (linkComponent w l).advertises) ∧
    ("normal_estimation/pointcloud", Msg.cloud (.normal w)) ∈
      (linksOf v b r o s u).flatMap fun l => (linkComponent w l).advertises := by
  decide +kernel

/-! ### Connections -/

theorem publishers_nil {nodes : List Node} {A : List Port} (hA : (nodes.flatMap Node.advertises).Perm (A.map absolute)) {x : String}
    (h : ∀ t ∈ A, "/serpent/" ++ t.1 ≠ x) : publishers nodes x = [] := by
  unfold publishers
  rw [List.filterMap_eq_nil_iff]
  intro t ht
  obtain ⟨y, hy, rfl⟩ := List.mem_map.1 (hA.mem_iff.1 ht)
  exact if_neg (h y hy)

theorem publishers_one {nodes : List Node} {A : List Port} (hA : (nodes.flatMap Node.advertises).Perm (A.map absolute))
    (hn : (A.map Prod.fst).Nodup) {t : Port} (ht : t ∈ A) : publishers nodes ("/serpent/" ++ t.1) = [t.2] := by
  have h := hA.filterMap fun s : Port => if s.1 = "/serpent/" ++ t.1 then some s.2 else none
  have e : (A.map absolute).filterMap (fun s : Port => if s.1 = "/serpent/" ++ t.1 then some s.2 else none) = [t.2] := by
    clear h hA
    induction A with
    | nil => cases ht
    | cons s A ih =>
      simp only [List.map_cons, List.nodup_cons] at hn
      rw [List.map_cons, List.filterMap_cons]
      by_cases hs : s.1 = t.1
      · have hst : s = t := by
          rcases List.mem_cons.1 ht with rfl | hm
          · rfl
          · exact absurd (List.mem_map.2 ⟨t, hm, hs.symm⟩) hn.1
        subst hst
        have : (A.map absolute).filterMap (fun x : Port => if x.1 = "/serpent/" ++ s.1 then some x.2 else none) = [] := by
          rw [List.filterMap_eq_nil_iff]
          intro x hx
          obtain ⟨y, hy, rfl⟩ := List.mem_map.1 hx
          refine if_neg fun e => hn.1 (List.mem_map.2 ⟨y, hy, absolute_name e⟩)
        simp only [absolute, if_true]
        rw [this]
      · have hst : (absolute s).1 ≠ "/serpent/" ++ t.1 := fun e => hs (absolute_name e)
        simp only [if_neg hst]
        refine ih hn.2 ?_
        rcases List.mem_cons.1 ht with rfl | hm
        · exact absurd rfl hs
        · exact hm
  rw [e] at h
  exact List.perm_singleton.1 h

theorem connected_of {a : Topics} {nodes : List Node} {A : List Port} (ho : Outside a)
    (hA : (nodes.flatMap Node.advertises).Perm (A.map absolute)) (hn : (A.map Prod.fst).Nodup)
    (hs : ∀ t ∈ subscriptions nodes, t ∈ sensors a ∨ ∃ x ∈ A, t = absolute x) : Connected a nodes := by
  intro t ht
  rcases hs t ht with h | ⟨x, hx, rfl⟩
  · exact .inl ⟨h, publishers_nil hA fun x _ e => ho t h x.1 e.symm⟩
  · exact .inr (publishers_one hA hn hx)

end Wiring

end Serpent
