import Verif.Model.Launch
import Verif.Spec.Launch
import Verif.Props.RobotMotion
import Verif.Props.Wiring

/-!
# C149: the launch files of the data sets connect the nodes to the recorded data

For all options with which the system starts, as one process, as two and as the stereo pipeline.
-/

namespace Serpent

namespace Wiring

open Params

/-! ### Nodes before those of the system -/

theorem publishers_append (l r : List Node) (t : String) : publishers (l ++ r) t = publishers l t ++ publishers r t := by
  simp [publishers, List.filterMap_append]

theorem publishers_mem {nodes : List Node} {t : String} {m : Msg} (h : m ∈ publishers nodes t) :
    (t, m) ∈ nodes.flatMap Node.advertises := by
  obtain ⟨x, hx, e⟩ := List.mem_filterMap.1 h
  split at e
  · rename_i hx1
    injection e with e
    rw [← hx1, ← e]
    exact hx
  · cases e

/-- The subscriptions of the first nodes, and the sensors, are served by the first nodes or recorded. -/
def Served (recorded : List Port) (pre : List Node) (t : Port) : Prop :=
  (t ∈ recorded ∧ publishers pre t.1 = []) ∨ publishers pre t.1 = [t.2]

theorem fed_of {recorded : List Port} {a : Topics} {pre ns : List Node} (hc : Connected a ns)
    (hi : ∀ t ∈ ns.flatMap Node.advertises, ∃ x, t.1 = "/serpent/" ++ x)
    (ho : ∀ t ∈ pre.flatMap Node.advertises, ∀ x, t.1 ≠ "/serpent/" ++ x)
    (hs : ∀ t ∈ sensors a, t ∈ subscriptions ns → Served recorded pre t)
    (hp : ∀ t ∈ subscriptions pre, Served recorded pre t ∧ ∀ x, t.1 ≠ "/serpent/" ++ x) : Fed recorded (pre ++ ns) := by
  intro t ht
  rw [publishers_append]
  have hnil : (∀ x, t.1 ≠ "/serpent/" ++ x) → publishers ns t.1 = [] := fun h => by
    refine List.eq_nil_iff_forall_not_mem.2 fun m hm => ?_
    obtain ⟨x, hx⟩ := hi _ (publishers_mem hm)
    exact h x hx
  unfold subscriptions at ht
  rw [List.flatMap_append, List.mem_append] at ht
  rcases ht with ht | ht
  · obtain ⟨h1, h2⟩ := hp t ht
    rw [hnil h2, List.append_nil]
    exact h1
  · rcases hc t ht with ⟨h1, h2⟩ | h
    · rw [h2, List.append_nil]
      exact hs t h1 ht
    · refine .inr ?_
      have hm : t.2 ∈ publishers ns t.1 := by rw [h]; exact List.mem_singleton.2 rfl
      obtain ⟨x, hx⟩ := hi _ (publishers_mem hm)
      have : publishers pre t.1 = [] := by
        refine List.eq_nil_iff_forall_not_mem.2 fun m hm => ?_
        exact ho _ (publishers_mem hm) x hx
      rw [this, h, List.nil_append]

variable {cv : OpenCv} {frames : String → Bool} {p : Server} {s : Single} {a : Topics} {n : Node}

theorem single_inside (h : single cv frames p = .ok s) (hn : singleNode a p s = .ok n) :
    ∀ t ∈ [n].flatMap Node.advertises, ∃ x, t.1 = "/serpent/" ++ x := by
  obtain ⟨l, -, hA, -⟩ := single_node h hn
  intro t ht
  simp only [List.flatMap_cons, List.flatMap_nil, List.append_nil, hA] at ht
  obtain ⟨x, -, rfl⟩ := List.mem_map.1 ht
  exact ⟨x.1, rfl⟩

theorem split_inside {f : FrontProcess} {b : BackProcess} (hf : frontProcess frames p = .ok f)
    (hb : backProcess cv frames p = .ok b) (hn : frontNode a p f = .ok n) :
    ∀ t ∈ [n, backNode b].flatMap Node.advertises, ∃ x, t.1 = "/serpent/" ++ x := by
  obtain ⟨s, h⟩ := C128_split_starts.2 ⟨⟨f, hf⟩, ⟨b, hb⟩⟩
  obtain ⟨l, -, hA, -⟩ := split_node h hf hb hn
  intro t ht
  simp only [List.flatMap_cons, List.flatMap_nil, List.append_nil] at ht
  obtain ⟨x, -, rfl⟩ := List.mem_map.1 (hA.mem_iff.1 ht)
  exact ⟨x.1, rfl⟩

theorem pipeline_inside (a : Topics) (t : StereoTracking) :
    ∀ x ∈ [pipelineNode a t].flatMap Node.advertises, ∃ y, x.1 = "/serpent/" ++ y := by
  intro x hx
  simp only [List.flatMap_cons, List.flatMap_nil, List.append_nil, pipeline_advertises] at hx
  obtain ⟨y, -, rfl⟩ := List.mem_map.1 hx
  exact ⟨y.1, rfl⟩

theorem not_inside {t : String} (h : t.toList.take 9 ≠ "/serpent/".toList) (x : String) : t ≠ "/serpent/" ++ x := by
  rintro rfl
  refine h ?_
  rw [String.toList_append]
  rfl

/-- What has to be known about the nodes for the cameras and the recorded data. -/
structure Sources (recorded : List Port) (a : Topics) (pre : List Node) : Prop where
  outside : Outside a
  advertised : ∀ t ∈ pre.flatMap Node.advertises, ∀ x, t.1 ≠ "/serpent/" ++ x
  sensors : ∀ t ∈ sensors a, t.2 ≠ .fluidPressure → Served recorded pre t
  barometer : publishers pre a.barometer = []
  subscribed : ∀ t ∈ subscriptions pre, Served recorded pre t ∧ ∀ x, t.1 ≠ "/serpent/" ++ x

theorem Served.mono {recorded more : List Port} {pre : List Node} {t : Port} (h : Served recorded pre t) :
    Served (recorded ++ more) pre t :=
  h.imp (fun h => ⟨List.mem_append_left _ h.1, h.2⟩) id

/-- All options: the barometer has to be recorded. -/
theorem Sources.fed {recorded : List Port} {pre ns : List Node} (h : Sources recorded a pre) (hb : a.barometer = "/barometer")
    (hc : Connected a ns) (hi : ∀ t ∈ ns.flatMap Node.advertises, ∃ x, t.1 = "/serpent/" ++ x) :
    Fed (recorded ++ barometerRecorded) (pre ++ ns) := by
  refine fed_of hc hi h.advertised (fun t ht _ => ?_) fun t ht => ⟨(h.subscribed t ht).1.mono, (h.subscribed t ht).2⟩
  by_cases hf : t.2 = .fluidPressure
  · have : t = (a.barometer, .fluidPressure) := by
      simp only [Wiring.sensors, List.mem_cons, List.not_mem_nil, or_false] at ht
      rcases ht with rfl | rfl | rfl | rfl | rfl | rfl | rfl <;> first | rfl | cases hf
    subst this
    exact .inl ⟨List.mem_append_right _ (by rw [hb]; exact List.mem_singleton.2 rfl), h.barometer⟩
  · exact (h.sensors t ht hf).mono

/-- Without the barometer. -/
theorem Sources.fed_without {recorded : List Port} {pre ns : List Node} (h : Sources recorded a pre)
    (hc : Connected a ns) (hi : ∀ t ∈ ns.flatMap Node.advertises, ∃ x, t.1 = "/serpent/" ++ x)
    (hb : (a.barometer, .fluidPressure) ∉ subscriptions ns) : Fed recorded (pre ++ ns) :=
  fed_of hc hi h.advertised (fun t ht hs => h.sensors t ht fun hf => by
    have : t = (a.barometer, .fluidPressure) := by
      simp only [Wiring.sensors, List.mem_cons, List.not_mem_nil, or_false] at ht
      rcases ht with rfl | rfl | rfl | rfl | rfl | rfl | rfl <;> first | rfl | cases hf
    exact hb (this ▸ hs)) h.subscribed

variable {ns : List Node}

theorem System.inside (h : System cv frames p a ns) : ∀ t ∈ ns.flatMap Node.advertises, ∃ x, t.1 = "/serpent/" ++ x := by
  cases h with
  | one h hn => exact single_inside h hn
  | two hf hb hn => exact split_inside hf hb hn
  | stereo h => exact pipeline_inside a _

theorem System.connected (h : System cv frames p a ns) (ho : Outside a) : Connected a ns := by
  cases h with
  | one h hn => exact C131_connected h hn ho
  | two hf hb hn => exact C131_split_connected hf hb hn ho
  | stereo h => exact (C131_pipeline a _ ho).2.1

theorem System.no_barometer (h : System cv frames p a ns) (ho : Outside a) (hp : p.bool "optimisation/factors/barometer" true = false) :
    (a.barometer, Msg.fluidPressure) ∉ subscriptions ns := by
  cases h with
  | one h hn =>
    intro hx
    simp only [subscriptions, List.flatMap_cons, List.flatMap_nil, List.append_nil] at hx
    rw [((C131_sensors h hn ho).2.2.2.2.2.2), hp] at hx
    cases hx
  | two hf hb hn =>
    obtain ⟨s, h⟩ := C128_split_starts.2 ⟨⟨_, hf⟩, ⟨_, hb⟩⟩
    obtain ⟨m, hm⟩ := C131_starts h a
    obtain ⟨m', hm', -, hperm⟩ := C131_split_same h hm hf hb
    rw [hn] at hm'
    injection hm' with e
    subst e
    intro hx
    simp only [subscriptions, List.flatMap_cons, List.flatMap_nil, List.append_nil] at hx
    rw [hperm.mem_iff, ((C131_sensors h hm ho).2.2.2.2.2.2), hp] at hx
    cases hx
  | stereo h =>
    intro hx
    simp only [subscriptions, List.flatMap_cons, List.flatMap_nil, List.append_nil, (C131_pipeline a _ ho).1] at hx
    simp at hx

/-! ### The three data sets -/

theorem snowboard_sources {camera : String} {pre : List Node} (h : snowboardCameras camera = .ok pre) :
    camera = "snowboard_left" ∧ Sources snowboardRecorded (snowboardTopics camera) pre := by
  unfold snowboardCameras at h
  split at h
  · rename_i hc
    have hc : camera = "snowboard_left" := by simpa [calibrated] using hc
    injection h with h
    subst hc h
    refine ⟨rfl, outside_of (by decide +kernel), fun t ht => not_inside ?_, fun t ht hf => ?_, by decide +kernel, fun t ht => ⟨?_, not_inside ?_⟩⟩
    · revert t
      decide +kernel
    · revert t
      unfold Served
      decide +kernel
    · revert t
      unfold Served
      decide +kernel
    · revert t
      decide +kernel
  · cases h

/-- Topics for the cameras that are no topics of anything else: each camera info has a topic of its own, and none is a topic of the
system itself. -/
def CameraTopics.Separate (c : CameraTopics) : Prop :=
  c.leftInfo ≠ c.rightInfo ∧
  (∀ i ∈ [c.leftInfo, c.rightInfo], i ∉ ["/imu", "/lidar/points", "/barometer", c.leftImage, c.rightImage]) ∧
  ∀ t ∈ [c.leftImage, c.leftInfo, c.rightImage, c.rightInfo], ∀ x, t ≠ "/serpent/" ++ x

theorem ue4_publishers (c : CameraTopics) (t : String) : publishers (ue4Cameras c) t =
    (if c.leftInfo = t then [Msg.cameraInfo] else []) ++ if c.rightInfo = t then [Msg.cameraInfo] else [] := by
  unfold publishers ue4Cameras ue4Infos
  simp only [List.map_cons, List.map_nil, InfoLaunch.node, List.flatMap_cons, List.flatMap_nil, List.append_nil, List.cons_append, List.nil_append, List.filterMap_cons,
    List.filterMap_nil]
  by_cases h1 : c.leftInfo = t <;> by_cases h2 : c.rightInfo = t <;> simp [h1, h2]

theorem ue4_sources {c : CameraTopics} (h : c.Separate) :
    Sources (ue4Recorded c.leftImage c.rightImage) (ue4Topics c) (ue4Cameras c) := by
  obtain ⟨h1, h2, h3⟩ := h
  have hl := h2 c.leftInfo (by simp)
  have hr := h2 c.rightInfo (by simp)
  simp only [List.mem_cons, List.not_mem_nil, or_false, not_or] at hl hr
  refine ⟨fun t ht => ?_, fun t ht => ?_, fun t ht hf => ?_, ?_, fun t ht => ⟨?_, ?_⟩⟩
  · simp only [sensors, ue4Topics, List.mem_cons, List.not_mem_nil, or_false] at ht
    rcases ht with rfl | rfl | rfl | rfl | rfl | rfl | rfl
    · exact not_inside (by decide +kernel)
    · exact not_inside (by decide +kernel)
    · exact h3 _ (by simp)
    · exact h3 _ (by simp)
    · exact h3 _ (by simp)
    · exact h3 _ (by simp)
    · exact not_inside (by decide +kernel)
  · simp only [ue4Cameras, ue4Infos, InfoLaunch.node, List.map_cons, List.map_nil, List.flatMap_cons, List.flatMap_nil, List.append_nil, List.cons_append, List.nil_append,
      List.mem_cons, List.not_mem_nil, or_false] at ht
    rcases ht with rfl | rfl <;> exact h3 _ (by simp)
  · unfold Served
    rw [ue4_publishers]
    simp only [sensors, ue4Topics, List.mem_cons, List.not_mem_nil, or_false] at ht
    rcases ht with rfl | rfl | rfl | rfl | rfl | rfl | rfl
    · exact .inl ⟨by simp [ue4Recorded], by rw [if_neg hl.1, if_neg hr.1]; rfl⟩
    · exact .inl ⟨by simp [ue4Recorded], by rw [if_neg hl.2.1, if_neg hr.2.1]; rfl⟩
    · exact .inl ⟨by simp [ue4Recorded], by rw [if_neg hl.2.2.2.1, if_neg hr.2.2.2.1]; rfl⟩
    · exact .inl ⟨by simp [ue4Recorded], by rw [if_neg hl.2.2.2.2, if_neg hr.2.2.2.2]; rfl⟩
    · exact .inr (by rw [if_pos rfl, if_neg h1.symm]; rfl)
    · exact .inr (by rw [if_neg h1, if_pos rfl]; rfl)
    · exact absurd rfl hf
  · rw [ue4_publishers]
    show (if c.leftInfo = "/barometer" then [Msg.cameraInfo] else []) ++ (if c.rightInfo = "/barometer" then _ else _) = _
    rw [if_neg hl.2.2.1, if_neg hr.2.2.1]
    rfl
  · unfold Served
    rw [ue4_publishers]
    simp only [subscriptions, ue4Cameras, ue4Infos, InfoLaunch.node, List.map_cons, List.map_nil, List.flatMap_cons, List.flatMap_nil, List.append_nil, List.cons_append,
      List.nil_append, List.mem_cons, List.not_mem_nil, or_false] at ht
    rcases ht with rfl | rfl
    · exact .inl ⟨by simp [ue4Recorded], by rw [if_neg hl.2.2.2.1, if_neg hr.2.2.2.1]; rfl⟩
    · exact .inl ⟨by simp [ue4Recorded], by rw [if_neg hl.2.2.2.2, if_neg hr.2.2.2.2]; rfl⟩
  · simp only [subscriptions, ue4Cameras, ue4Infos, InfoLaunch.node, List.map_cons, List.map_nil, List.flatMap_cons, List.flatMap_nil, List.append_nil, List.cons_append,
      List.nil_append, List.mem_cons, List.not_mem_nil, or_false] at ht
    rcases ht with rfl | rfl <;> exact h3 _ (by simp)

theorem simulator_sources {camera : String} (h : camera ∈ ["camera_left", "camera_right", "camera_front"]) :
    Sources simulatorRecorded (simulatorTopics camera) [] := by
  refine ⟨outside_of ?_, fun t ht => (by cases ht), fun t ht hf => .inl ⟨?_, rfl⟩, rfl, fun t ht => (by cases ht)⟩
  · revert camera
    decide +kernel
  · revert t
    revert camera
    decide +kernel

/-- **C149.** Snowboard: the launch files start exactly with the camera that has a calibration. Then every subscription of the nodes for
the cameras and of the nodes of the system, with all options with which they start, is to a recorded topic or has exactly one publisher,
of the right type. -/
theorem C149_snowboard (camera : String) :
    ((∃ pre, snowboardCameras camera = .ok pre) ↔ camera = "snowboard_left") ∧
    ∀ {pre ns : List Node} {cv : OpenCv} {frames : String → Bool} {p : Server}, snowboardCameras camera = .ok pre →
      System cv frames p (snowboardTopics camera) ns → Fed (snowboardRecorded ++ barometerRecorded) (pre ++ ns) := by
  refine ⟨⟨fun ⟨pre, h⟩ => (snowboard_sources h).1, fun h => ⟨_, if_pos (by rw [h]; exact List.mem_singleton.2 rfl)⟩⟩, ?_⟩
  intro pre ns cv frames p h hs
  have hx := (snowboard_sources h).2
  exact hx.fed rfl (hs.connected hx.outside) hs.inside

/-- **C149.** Missions of ue4, with any separate topics of the cameras. -/
theorem C149_ue4 {c : CameraTopics} (hc : c.Separate) (hs : System cv frames p (ue4Topics c) ns) :
    Fed (ue4Recorded c.leftImage c.rightImage ++ barometerRecorded) (ue4Cameras c ++ ns) :=
  (ue4_sources hc).fed rfl (hs.connected (ue4_sources hc).outside) hs.inside

/-- **C149.** The default topics of the launch file are separate. -/
theorem C149_ue4_defaults : ue4Defaults.Separate := by
  refine ⟨by decide +kernel, by decide +kernel, fun t ht => not_inside ?_⟩
  revert t
  decide +kernel

/-- **C149.** Two cameras with one topic for the camera infos are not separate, and the node that tracks features then gets the infos of
both cameras on one topic. -/
theorem C149_ue4_one_topic {c : CameraTopics} {t : StereoTracking} (h : c.leftInfo = c.rightInfo) (recorded : List Port) :
    ¬ Fed recorded (ue4Cameras c ++ [pipelineNode (ue4Topics c) t]) := by
  intro hf
  have hm : (c.leftInfo, Msg.cameraInfo) ∈ subscriptions (ue4Cameras c ++ [pipelineNode (ue4Topics c) t]) := by
    unfold subscriptions
    rw [List.flatMap_append]
    refine List.mem_append_right _ ?_
    simp [pipelineNode, node, stereoComponent, resolve, stereoRemaps, List.lookup, ue4Topics]
  have := hf _ hm
  rw [publishers_append, ue4_publishers, if_pos rfl, if_pos h.symm] at this
  simp at this

/-- **C149.** Simulator: each of its three stereo cameras. -/
theorem C149_simulator {camera : String} (h : camera ∈ ["camera_left", "camera_right", "camera_front"])
    (hs : System cv frames p (simulatorTopics camera) ns) : Fed (simulatorRecorded ++ barometerRecorded) ns := by
  have := (simulator_sources h).fed rfl (hs.connected (simulator_sources h).outside) hs.inside
  simpa using this

/-- The missions do not use the barometer. -/
theorem mission_barometer {d : DataSet} (hd : d ∈ dataSets) {m : String × List (String × Value)} (hm : m ∈ d.missions) {k : Int}
    (hk : 1 ≤ k) : (d.server m.2 k).bool "optimisation/factors/barometer" true = false := by
  obtain ⟨s, t, -, -, -, hb, -, -, h⟩ := C148_starts d hd m hm
  obtain ⟨hf, -⟩ := single_eq_ok.1 (h ⟨4, 4⟩ k hk).1
  obtain ⟨-, -, f2, -⟩ := frontend_shared hf
  rw [← f2]
  exact hb

/-- The system exists with the options of every mission. -/
theorem mission_system {d : DataSet} (hd : d ∈ dataSets) {m : String × List (String × Value)} (hm : m ∈ d.missions) (cv : OpenCv) {k : Int}
    (hk : 1 ≤ k) (a : Topics) : (∃ n, System cv d.hasFrame (d.server m.2 k) a [n]) ∧
      (∃ n b, System cv d.hasFrame (d.server m.2 k) a [n, b]) := by
  obtain ⟨s, t, -, -, -, -, -, -, h⟩ := C148_starts d hd m hm
  obtain ⟨h1, h2, h3, -⟩ := h cv k hk
  obtain ⟨n, hn⟩ := C131_starts h1 a
  obtain ⟨n', hn', -⟩ := C131_split_same h1 hn h2 h3
  exact ⟨⟨n, .one h1 hn⟩, ⟨n', _, .two h2 h3 hn'⟩⟩

/-- **C149.** The missions: with each version of OpenCV and at least one thread, all nodes of the launch files start, as one process or
as two, and get their data from the recorded topics; no barometer is needed. -/
theorem C149_missions (cv : OpenCv) (k : Int) (hk : 1 ≤ k) :
    (∃ pre, snowboardCameras "snowboard_left" = .ok pre ∧ ∀ m ∈ snowboard.missions, ∀ ns,
      System cv snowboard.hasFrame (snowboard.server m.2 k) (snowboardTopics "snowboard_left") ns → Fed snowboardRecorded (pre ++ ns)) ∧
    (∀ m ∈ ue4.missions, ∀ c : CameraTopics, c.Separate → ∀ ns, System cv ue4.hasFrame (ue4.server m.2 k) (ue4Topics c) ns →
      Fed (ue4Recorded c.leftImage c.rightImage) (ue4Cameras c ++ ns)) ∧
    (∀ m ∈ simulator.missions, ∀ camera ∈ ["camera_left", "camera_right", "camera_front"], ∀ ns,
      System cv simulator.hasFrame (simulator.server m.2 k) (simulatorTopics camera) ns → Fed simulatorRecorded ns) ∧
    ∀ d ∈ dataSets, ∀ m ∈ d.missions, ∀ a, (∃ n, System cv d.hasFrame (d.server m.2 k) a [n]) ∧
      ∃ n b, System cv d.hasFrame (d.server m.2 k) a [n, b] := by
  refine ⟨⟨_, if_pos (List.mem_singleton.2 rfl), fun m hm ns hs => ?_⟩, fun m hm c hc ns hs => ?_, fun m hm camera hc ns hs => ?_,
    fun d hd m hm a => mission_system hd hm cv hk a⟩
  · have hx := (snowboard_sources (camera := "snowboard_left") (if_pos (List.mem_singleton.2 rfl))).2
    exact hx.fed_without (hs.connected hx.outside) hs.inside
      (hs.no_barometer hx.outside (mission_barometer (by simp [dataSets]) hm hk))
  · have hx := ue4_sources hc
    exact hx.fed_without (hs.connected hx.outside) hs.inside
      (hs.no_barometer hx.outside (mission_barometer (by simp [dataSets]) hm hk))
  · have hx := simulator_sources hc
    have := hx.fed_without (hs.connected hx.outside) hs.inside
      (hs.no_barometer hx.outside (mission_barometer (by simp [dataSets]) hm hk))
    simpa using this

/-! ### The camera of the images and the camera of the options -/

theorem left_frame {d : DataSet} {m : List (String × Value)} {k : Int} :
    (d.server m k).str "stereo_factors/left_cam_frame" "stereo" = (d.base m).str "stereo_factors/left_cam_frame" "stereo" :=
  str_set_other (by decide +kernel) _

open Robots in
/-- **C149.** Snowboard: if the launch file starts, then the images (with infos) that the system takes from the left and right camera
are the undistorted ones of two parts of the recorded images; their frames are those of the left and right camera of one stereo
camera of the robot, and the back end takes the frame of the left one for the left camera. -/
theorem C149_snowboard_camera {camera : String} {pre : List Node} (h : snowboardCameras camera = .ok pre) :
    ∃ u ∈ undistorted camera, ∃ v ∈ undistorted camera, ∃ left ∈ kit0 ++ kit1, ∃ right ∈ kit0 ++ kit1, ∃ baseline,
      u.image = (snowboardTopics camera).leftImage ∧ u.info = (snowboardTopics camera).leftInfo ∧ u.raw = left.topic ∧
      v.image = (snowboardTopics camera).rightImage ∧ v.info = (snowboardTopics camera).rightInfo ∧ v.raw = right.topic ∧
      (Robots.snowboard, left.frameId, right.frameId, baseline) ∈ stereoPairs ∧
      ∀ m ∈ Params.snowboard.missions, ∀ k, (Params.snowboard.server m.2 k).str "stereo_factors/left_cam_frame" "stereo" = left.frameId := by
  obtain ⟨rfl, -⟩ := snowboard_sources h
  refine ⟨_, List.mem_cons_self, _, List.mem_cons_of_mem _ List.mem_cons_self,
    kitImage "/snowboard_left/left/image_raw" "left_stereo_left_cam" "/snowboard_left/left/camera_info" 3 true, by simp [kit0],
    kitImage "/snowboard_left/right/image_raw" "left_stereo_right_cam" "/snowboard_left/right/camera_info" 2 true, by simp [kit0],
    0.055, rfl, rfl, by decide +kernel, rfl, rfl, by decide +kernel, ?_, fun m hm k => ?_⟩
  · unfold stereoPairs
    exact List.mem_cons_self
  · rw [left_frame]
    revert m
    decide +kernel

open Camera Robots in
/-- **C149.** ue4: the camera infos that the system takes from the left and right camera are published for the images that it takes
from them, with the distance of the cameras in the right one. -/
theorem C149_ue4_infos (c : CameraTopics) :
    ∃ l ∈ ue4Infos c, ∃ r ∈ ue4Infos c, l.image = (ue4Topics c).leftImage ∧ l.info = (ue4Topics c).leftInfo ∧
      r.image = (ue4Topics c).rightImage ∧ r.info = (ue4Topics c).rightInfo ∧ (newPublishInfo l.config).p 3 = 0 ∧
      (Robots.ue4, "left_cam", "right_cam", ((-(newPublishInfo r.config).p 3 / (newPublishInfo r.config).p 0 : ℚ) : ℝ)) ∈ stereoPairs := by
  refine ⟨_, List.mem_cons_self, _, List.mem_cons_of_mem _ List.mem_cons_self, rfl, rfl, rfl, rfl,
    (by decide +kernel : (newPublishInfo (ue4Info 0)).p 3 = 0), ?_⟩
  obtain ⟨-, h, -, h'⟩ := C148_ue4_info
  dsimp only
  rw [h]
  exact h'

open BodyFrames EigenExt Motion Robots in
/-- **C149 fails in the simulator.** The launch file accepts each of the three stereo cameras, but the frame which the back end takes for
the left camera is that of the front camera: for the images of the other two it is another place on the robot. -/
theorem C149_fails_simulator_camera (tf tf' : TF (Iso ℝ)) : ∃ s, create tf Robots.simulator = .ok s ∧
    (∀ m ∈ Params.simulator.missions, ∀ k, (Params.simulator.server m.2 k).str "stereo_factors/left_cam_frame" "stereo" = "camera_front_left") ∧
    ∀ camera ∈ ["camera_left", "camera_right"], ∃ frame X Y, ((simulatorTopics camera).leftImage, frame) ∈ simulatorImages ∧
      Mounted ⟨tf', s⟩ frame X ∧ Mounted ⟨tf', s⟩ "camera_front_left" Y ∧ X.t ≠ Y.t := by
  have hr : (Params.simulator, Robots.simulator) ∈ robots := by simp [robots]
  obtain ⟨s, h⟩ := robot_created hr tf
  have hp := plain_robots _ hr
  refine ⟨s, h, fun m hm k => ?_, fun camera hc => ?_⟩
  · rw [left_frame]
    revert m
    decide +kernel
  · have front := mounted_fixed h hp (.below (.next (.next (.next (.next (declares_fixed _ _)))))) tf'
    simp only [List.mem_cons, List.not_mem_nil, or_false] at hc
    rcases hc with rfl | rfl
    · refine ⟨"camera_left_left", _, _, by decide +kernel, mounted_fixed h hp (.below (.next (.next (declares_fixed _ _)))) tf', front,
        fun e => ?_⟩
      have := congrFun e 1
      norm_num [nodeTransform] at this
    · refine ⟨"camera_right_left", _, _, by decide +kernel, mounted_fixed h hp (.below (.next (.next (.next (declares_fixed _ _))))) tf',
        front, fun e => ?_⟩
      have := congrFun e 1
      norm_num [nodeTransform] at this

open Robots in
/-- C149 (partial: only the front camera). Simulator: the images that the system takes from the left and right camera are of one stereo
camera of the robot, and exactly with the front camera, which is the default, the back end takes the frame of its left camera. -/
theorem C149_simulator_camera_partial (camera : String) (h : camera ∈ ["camera_left", "camera_right", "camera_front"]) :
    ∃ left right baseline, ((simulatorTopics camera).leftImage, left) ∈ simulatorImages ∧
      ((simulatorTopics camera).rightImage, right) ∈ simulatorImages ∧ (Robots.simulator, left, right, baseline) ∈ stereoPairs ∧
      (simulatorTopics camera).leftInfo = "/" ++ camera ++ "/left/camera_info" ∧
      (simulatorTopics camera).rightInfo = "/" ++ camera ++ "/right/camera_info" ∧
      ∀ m ∈ Params.simulator.missions, ∀ k,
        (Params.simulator.server m.2 k).str "stereo_factors/left_cam_frame" "stereo" = left ↔ camera = "camera_front" := by
  have e : ∀ m ∈ Params.simulator.missions, ∀ k,
      (Params.simulator.server m.2 k).str "stereo_factors/left_cam_frame" "stereo" = "camera_front_left" := fun m hm k => by
    rw [left_frame]
    revert m
    decide +kernel
  simp only [List.mem_cons, List.not_mem_nil, or_false] at h
  rcases h with rfl | rfl | rfl
  · refine ⟨"camera_left_left", "camera_left_right", 0.1, by decide +kernel, by decide +kernel, ?_, rfl, rfl, fun m hm k => ?_⟩
    · simp [stereoPairs]
    · rw [e m hm k]
      decide +kernel
  · refine ⟨"camera_right_left", "camera_right_right", 0.1, by decide +kernel, by decide +kernel, ?_, rfl, rfl, fun m hm k => ?_⟩
    · simp [stereoPairs]
    · rw [e m hm k]
      decide +kernel
  · refine ⟨"camera_front_left", "camera_front_right", 0.1, by decide +kernel, by decide +kernel, ?_, rfl, rfl, fun m hm k => ?_⟩
    · simp [stereoPairs]
    · rw [e m hm k]
      decide +kernel

/-! ### Examples -/

/-- The stereo pipeline of every mission of the snowboard gets the images of its camera, by way of two other nodes. -/
example (m : String × List (String × Value)) (hm : m ∈ snowboard.missions) : ∃ pre t,
    snowboardCameras "snowboard_left" = .ok pre ∧ stereoProcess ⟨4, 4⟩ (snowboard.server m.2 4) = .ok (t, 4) ∧
    Fed snowboardRecorded (pre ++ [pipelineNode (snowboardTopics "snowboard_left") t]) ∧
    (subscriptions (pre ++ [pipelineNode (snowboardTopics "snowboard_left") t])).length = 8 := by
  obtain ⟨s, t, -, -, -, -, -, -, h⟩ := C148_starts snowboard (by simp [dataSets]) m hm
  have hst := (h ⟨4, 4⟩ 4 (by decide)).2.2.2
  obtain ⟨pre, hp, hf⟩ := (C149_missions ⟨4, 4⟩ 4 (by decide)).1
  refine ⟨pre, t, hp, hst, hf m hm _ (.stereo hst), ?_⟩
  have hp' : snowboardCameras "snowboard_left" = .ok [splitNode "/kit0/image" Robots.kit0, splitNode "/kit1/image" Robots.kit1,
    undistortNode "snowboard_left"] := if_pos (List.mem_singleton.2 rfl)
  rw [hp] at hp'
  injection hp' with hp'
  subst hp'
  rfl

/-- A camera without calibration is not launched. -/
example : snowboardCameras "snowboard_front" = .throws := by decide +kernel

/-- With stereo features and the barometer, the node for ue4 gets the camera infos from the nodes for them. -/
example : ∃ m ∈ ue4.missions, ∃ s n, single ⟨4, 4⟩ ue4.hasFrame
      (((ue4.server m.2 8).set "optimisation/factors/stereo" (.bool true)).set "optimisation/factors/barometer" (.bool true)) = .ok s ∧
    singleNode (ue4Topics ue4Defaults)
      (((ue4.server m.2 8).set "optimisation/factors/stereo" (.bool true)).set "optimisation/factors/barometer" (.bool true)) s = .ok n ∧
    ("/left_cam/camera_info", Msg.cameraInfo) ∈ n.subscribes ∧ ("/barometer", Msg.fluidPressure) ∈ n.subscribes ∧
    Fed (ue4Recorded "/left_cam/image_raw" "/right_cam/image_raw" ++ barometerRecorded) (ue4Cameras ue4Defaults ++ [n]) := by
  have h : ∃ m ∈ ue4.missions, ∃ s, single ⟨4, 4⟩ ue4.hasFrame
      (((ue4.server m.2 8).set "optimisation/factors/stereo" (.bool true)).set "optimisation/factors/barometer" (.bool true)) = .ok s := by
    have hx : (ue4.missions.any fun m => match single ⟨4, 4⟩ ue4.hasFrame
        (((ue4.server m.2 8).set "optimisation/factors/stereo" (.bool true)).set "optimisation/factors/barometer" (.bool true)) with
          | .ok _ => true
          | _ => false) = true := by decide +kernel
    obtain ⟨m, hm, hx⟩ := List.any_eq_true.1 hx
    refine ⟨m, hm, ?_⟩
    split at hx
    · rename_i s hs
      exact ⟨s, hs⟩
    · cases hx
  obtain ⟨m, hm, s, hs⟩ := h
  obtain ⟨n, hn⟩ := C131_starts hs (ue4Topics ue4Defaults)
  have ho := (ue4_sources C149_ue4_defaults).outside
  obtain ⟨-, -, -, -, h5, -, h7⟩ := C131_sensors hs hn ho
  refine ⟨m, hm, s, n, hs, hn, h5.2 ?_, h7.2 ?_, C149_ue4 C149_ue4_defaults (.one hs hn)⟩
  · rw [bool_set_other (by decide +kernel)]
    rfl
  · rfl

end Wiring

end Serpent
