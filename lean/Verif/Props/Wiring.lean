import Verif.Lemmas.WiringSystem

/-!
# C131: the components are connected

Every component names its topics itself. For all options with which the system starts, every subscription is to a sensor given to the
launch file or has exactly one publisher, of the right type; this holds for one process and for two.
-/

namespace Serpent

namespace Wiring

open Params

variable {cv : OpenCv} {frames : String → Bool} {p : Server} {s : Single} {a : Topics} {n : Node}

/-- A system that starts has the subscriptions and publishers of a node. -/
theorem C131_starts (h : single cv frames p = .ok s) (a : Topics) : ∃ n, singleNode a p s = .ok n := by
  unfold singleNode
  suffices hx : ∃ l, lidarFrontComponents p (s.lidar.map Prod.fst) = .ok l by
    obtain ⟨l, hl⟩ := hx
    rw [hl, Outcome.bind_ok]
    exact ⟨_, rfl⟩
  cases hs : s.lidar with
  | none => exact ⟨_, rfl⟩
  | some fb =>
    obtain ⟨f, b⟩ := fb
    obtain ⟨-, -, -, hl, -⟩ := single_eq_ok.mp h
    rw [hs] at hl
    obtain ⟨hu, hf, -⟩ := lidar_eq_ok hl
    have hu' : Lidar.requiresUnitVectorsNamed (p.str "registration_covariance/method" "CENSI")
      (p.str "registration_covariance/point_covariance/method" "RANGE") = .ok f.unit := hu
    simp only [Option.map_some, lidarFrontComponents, Lidar.lidarNode, hu', Outcome.bind_ok]
    unfold filterIfEnabled at hf
    split at hf
    · rename_i he
      obtain ⟨g, hg, -⟩ := bind_eq_ok hf
      obtain ⟨-, hsam, -⟩ := filter_eq_ok hg
      rw [if_pos (by exact he)]
      unfold sampleParams at hsam
      have hneg : ¬ ((filterConfig p).sample = true ∧ (filterConfig p).sampleSize < 0) ∧
          ¬ ((filterConfig p).sample = true ∧ (filterConfig p).seed < 0) := by
        show ¬ (p.bool "random_sample_filter/enabled" false = true ∧ p.int "random_sample_filter/sample_size" 3000 < 0) ∧
          ¬ (p.bool "random_sample_filter/enabled" false = true ∧ p.int "random_sample_filter/random_seed" 0 < 0)
        split at hsam
        · split at hsam
          · cases hsam
          · split at hsam
            · cases hsam
            · rename_i h1 h2
              exact ⟨fun x => h1 x.2, fun x => h2 x.2⟩
        · rename_i hb
          exact ⟨fun x => hb x.1, fun x => hb x.1⟩
      unfold Lidar.pointcloudFilter
      dsimp only
      rw [if_neg hneg.1, if_neg hneg.2]
      exact ⟨_, rfl⟩
    · rename_i he
      rw [if_neg (by exact he)]
      exact ⟨_, rfl⟩

/-- One process: every subscription is to a sensor, or has exactly one publisher, of its type. -/
theorem C131_connected (h : single cv frames p = .ok s) (hn : singleNode a p s = .ok n) (ho : Outside a) : Connected a [n] := by
  obtain ⟨l, hl, hA, hS⟩ := single_node h hn
  refine connected_of ho (A := advertised s l) (by simp [hA]) (nodup_advertised h hl) fun t ht => ?_
  simp only [subscriptions, List.flatMap_cons, List.flatMap_nil, List.append_nil, hS] at ht
  obtain ⟨x, hx, rfl⟩ := List.mem_map.1 ht
  rcases served h hl a x hx with hs | hs
  · exact .inl hs
  · obtain ⟨u, hsub⟩ := advertised_sublist h hl
    exact .inr ⟨x, hs, by rw [resolve_other a (allMax_not_input u x (hsub.subset hs))]; rfl⟩

/-- Two processes, with the same options: the same. -/
theorem C131_split_connected {f : FrontProcess} {b : BackProcess} (hf : frontProcess frames p = .ok f)
    (hb : backProcess cv frames p = .ok b) (hn : frontNode a p f = .ok n) (ho : Outside a) : Connected a [n, backNode b] := by
  obtain ⟨s, h⟩ := C128_split_starts.2 ⟨⟨f, hf⟩, ⟨b, hb⟩⟩
  obtain ⟨l, hl, hA, hS⟩ := split_node h hf hb hn
  refine connected_of ho (A := advertised s l) (by simpa using hA) (nodup_advertised h hl) fun t ht => ?_
  simp only [subscriptions, List.flatMap_cons, List.flatMap_nil, List.append_nil] at ht
  obtain ⟨x, hx, rfl⟩ := List.mem_map.1 (hS.mem_iff.1 ht)
  rcases served h hl a x hx with hs | hs
  · exact .inl hs
  · obtain ⟨u, hsub⟩ := advertised_sublist h hl
    exact .inr ⟨x, hs, by rw [resolve_other a (allMax_not_input u x (hsub.subset hs))]; rfl⟩

/-- The two processes have the subscriptions and the publishers of the single one. -/
theorem C131_split_same (h : single cv frames p = .ok s) (hn : singleNode a p s = .ok n) {f : FrontProcess} {b : BackProcess}
    (hf : frontProcess frames p = .ok f) (hb : backProcess cv frames p = .ok b) :
    ∃ m, frontNode a p f = .ok m ∧ (m.advertises ++ (backNode b).advertises).Perm n.advertises ∧
      (m.subscribes ++ (backNode b).subscribes).Perm n.subscribes := by
  obtain ⟨l, hl, hA, hS⟩ := single_node h hn
  have hf' := (C128_split_same h).1
  rw [hf] at hf'
  have hm : ∃ m, frontNode a p f = .ok m := by
    injection hf' with e
    subst e
    unfold frontNode
    dsimp only
    rw [hl, Outcome.bind_ok]
    exact ⟨_, rfl⟩
  obtain ⟨m, hm⟩ := hm
  obtain ⟨l', hl', hA', hS'⟩ := split_node h hf hb hm
  rw [hl] at hl'
  injection hl' with hl'
  subst hl'
  exact ⟨m, hm, by rw [hA]; exact hA', by rw [hS]; exact hS'⟩

/-- No topic is advertised twice. -/
theorem C131_advertised_once (h : single cv frames p = .ok s) (hn : singleNode a p s = .ok n) :
    (n.advertises.map Prod.fst).Nodup := by
  obtain ⟨l, hl, hA, -⟩ := single_node h hn
  have := (nodup_advertised h hl).map (f := ("/serpent/" ++ ·)) fun x y e => absolute_name e
  rw [hA]
  simpa [List.map_map, Function.comp_def, absolute] using this

/-! ### Which topics there are -/

/-- The table says exactly with which options each topic exists. -/
theorem C131_topics (h : single cv frames p = .ok s) (hn : singleNode a p s = .ok n) :
    (∀ e ∈ topicTable p, n.Publishes e.1 ↔ e.2 = true) ∧ ∀ t, n.Publishes t → t ∈ (topicTable p).map Prod.fst := by
  obtain ⟨l, hl, hA, -⟩ := single_node h hn
  obtain ⟨u, h1, h2, h3⟩ := table_part h hl
  have e : n.advertises.map Prod.fst = (advertised s l).map fun t => "/serpent/" ++ t.1 := by
    rw [hA, List.map_map]
    rfl
  refine ⟨fun x hx => ?_, fun t ht => ?_⟩
  · unfold Node.Publishes
    rw [e]
    exact h3 x hx
  · unfold Node.Publishes at ht
    rw [e] at ht
    rw [h1]
    exact (h2.map _).subset ht

/-- The sensors: IMU and lidar are always subscribed to, cameras and barometer exactly if their factors are used. -/
theorem C131_sensors (h : single cv frames p = .ok s) (hn : singleNode a p s = .ok n) (ho : Outside a) :
    (a.imu, Msg.imu) ∈ n.subscribes ∧ (a.pointcloud, Msg.cloud .any) ∈ n.subscribes ∧
    ((a.leftImage, Msg.image) ∈ n.subscribes ↔ p.bool "optimisation/factors/stereo" true = true) ∧
    ((a.rightImage, Msg.image) ∈ n.subscribes ↔ p.bool "optimisation/factors/stereo" true = true) ∧
    ((a.leftInfo, Msg.cameraInfo) ∈ n.subscribes ↔ p.bool "optimisation/factors/stereo" true = true) ∧
    ((a.rightInfo, Msg.cameraInfo) ∈ n.subscribes ↔ p.bool "optimisation/factors/stereo" true = true) ∧
    ((a.barometer, Msg.fluidPressure) ∈ n.subscribes ↔ p.bool "optimisation/factors/barometer" true = true) := by
  obtain ⟨hf, -⟩ := single_eq_ok.mp h
  obtain ⟨-, f1, f2, -⟩ := frontend_shared hf
  obtain ⟨l, hl, -, hS⟩ := single_node h hn
  obtain ⟨r1, r2, r3, r4, r5, r6, r7⟩ := resolve_inputs a
  rw [← f1, ← f2, hS]
  have mem : ∀ {x : Port}, x ∈ subscribed s l → (resolve (inputRemaps a) x.1, x.2) ∈
      (subscribed s l).map fun t => (resolve (inputRemaps a) t.1, t.2) := fun hx => List.mem_map.2 ⟨_, hx, rfl⟩
  have hF : ∀ x ∈ (frontendComponent s.frontend).subscribes, x ∈ subscribed s l := fun x hx => by
    simp only [subscribed, List.mem_append]; exact .inl hx
  have back : ∀ {t : Port}, t ∈ sensors a → t ∈ ((subscribed s l).map fun t => (resolve (inputRemaps a) t.1, t.2)) →
      ∃ x ∈ subscribed s l, x.1 ∈ inputNames ∧ x.2 = t.2 := by
    intro t hs ht
    obtain ⟨x, hx, rfl⟩ := List.mem_map.1 ht
    refine ⟨x, hx, ?_, rfl⟩
    by_contra hni
    exact ho _ hs x.1 (resolve_other a hni)
  have hstereo : ∀ {t : Port}, t ∈ sensors a → t.2 = .image ∨ t.2 = .cameraInfo →
      t ∈ ((subscribed s l).map fun t => (resolve (inputRemaps a) t.1, t.2)) → s.frontend.stereo = true := by
    intro t hs hk ht
    obtain ⟨x, hx, hi, e⟩ := back hs ht
    rw [← e] at hk
    rcases input_subscribed h hl x hx hi with rfl | rfl | ⟨hb, -⟩ | ⟨-, rfl⟩
    · simp at hk
    · simp at hk
    · exact hb
    · simp at hk
  refine ⟨?_, ?_, ⟨fun ht => hstereo (by simp [sensors]) (.inl rfl) ht, fun hb => ?_⟩,
    ⟨fun ht => hstereo (by simp [sensors]) (.inl rfl) ht, fun hb => ?_⟩,
    ⟨fun ht => hstereo (by simp [sensors]) (.inr rfl) ht, fun hb => ?_⟩,
    ⟨fun ht => hstereo (by simp [sensors]) (.inr rfl) ht, fun hb => ?_⟩, ⟨fun ht => ?_, fun hb => ?_⟩⟩
  · rw [← r1]
    exact mem (x := ("input/imu", .imu)) (hF _ (by simp [frontendComponent]))
  · rw [← r2]
    exact mem (x := ("input/pointcloud", .cloud .any)) (by simp [subscribed, formatterComponent])
  · rw [← r3]
    exact mem (x := ("input/stereo/left/image", .image)) (hF _ (by simp [frontendComponent, mem_onlyIf, hb]))
  · rw [← r4]
    exact mem (x := ("input/stereo/right/image", .image)) (hF _ (by simp [frontendComponent, mem_onlyIf, hb]))
  · rw [← r5]
    exact mem (x := ("input/stereo/left/camera_info", .cameraInfo)) (hF _ (by simp [frontendComponent, mem_onlyIf, hb]))
  · rw [← r6]
    exact mem (x := ("input/stereo/right/camera_info", .cameraInfo)) (hF _ (by simp [frontendComponent, mem_onlyIf, hb]))
  · obtain ⟨x, hx, hi, e⟩ := back (by simp [sensors]) ht
    rcases input_subscribed h hl x hx hi with rfl | rfl | ⟨-, rfl | rfl | rfl | rfl⟩ | ⟨hb, -⟩
    all_goals first | exact hb | cases e
  · rw [← r7]
    exact mem (x := ("input/barometer", .fluidPressure)) (hF _ (by simp [frontendComponent, mem_onlyIf, hb]))

/-- Who reads what: every topic of the table has exactly so many subscribers, and all other subscriptions are to sensors. In
particular, nothing in the system reads its outputs or its topics for debugging, and the registration reads the local map. -/
theorem C131_readers (h : single cv frames p = .ok s) (hn : singleNode a p s = .ok n) (ho : Outside a) :
    (∀ e ∈ subscriberTable p, subscribers [n] e.1 = e.2) ∧
    ∀ t ∈ n.subscribes, t ∈ sensors a ∨ t.1 ∈ (subscriberTable p).map Prod.fst := by
  obtain ⟨l, hl, hA, hS⟩ := single_node h hn
  obtain ⟨links, h1, h2, h3⟩ := subscribed_names h hl
  have hc : ∀ x, x ∉ inputNames → subscribers [n] ("/serpent/" ++ x) = ((subscribed s l).map Prod.fst).count x := fun x hx => by
    unfold subscribers subscriptions
    rw [List.flatMap_cons, List.flatMap_nil, List.append_nil, hS]
    exact count_resolve ho hx _
  have hr : (cloudOptions p).registration = p.bool "optimisation/factors/registration" true := rfl
  refine ⟨fun e he => ?_, fun t ht => ?_⟩
  · unfold subscriberTable at he
    rw [readTable_eq, hr] at he
    obtain ⟨x, hx, rfl⟩ := List.mem_map.1 he
    rcases List.mem_append.1 hx with hx | hx
    · show subscribers [n] ("/serpent/" ++ x.1) = x.2
      rw [hc _ (fixed_not_input _ _ _ x hx), h1, fixed_count _ _ _ x hx, List.count_eq_zero.2, Nat.add_zero]
      intro hm
      exact (fixed_disjoint _ _ _ _ (h3 _ hm)).1.2 (List.mem_map_of_mem hx)
    · have hm : x.1 ∈ linkNames := by
        rw [← linkTable_names (cloudOptions p)]
        exact List.mem_map_of_mem hx
      obtain ⟨⟨d1, -⟩, d3⟩ := fixed_disjoint (p.bool "optimisation/factors/stereo" true)
        (p.bool "optimisation/factors/barometer" true) (p.bool "optimisation/factors/registration" true) _ hm
      show subscribers [n] ("/serpent/" ++ x.1) = x.2
      rw [hc _ d3, h1, List.count_eq_zero.2 d1, Nat.zero_add, h2 x hx]
  · rw [hS] at ht
    obtain ⟨x, hx, rfl⟩ := List.mem_map.1 ht
    rcases served h hl a x hx with hs | hs
    · exact .inl hs
    · obtain ⟨u, hsub⟩ := advertised_sublist h hl
      have hni := allMax_not_input u x (hsub.subset hs)
      refine .inr ?_
      have hpos : 0 < ((subscribed s l).map Prod.fst).count x.1 := List.count_pos_iff.2 (List.mem_map_of_mem hx)
      rw [h1] at hpos
      show resolve (inputRemaps a) x.1 ∈ _
      rw [resolve_other a hni]
      unfold subscriberTable
      rw [readTable_eq, hr, List.map_map]
      have key : x.1 ∈ (fixedTable (p.bool "optimisation/factors/stereo" true) (p.bool "optimisation/factors/barometer" true)
          (p.bool "optimisation/factors/registration" true) ++ linkTable (cloudOptions p)).map Prod.fst := by
        rw [List.map_append, List.mem_append, linkTable_names]
        by_cases hl' : x.1 ∈ links
        · exact .inr (h3 _ hl')
        · rw [List.count_eq_zero.2 hl', Nat.add_zero] at hpos
          exact .inl ((fixed_cover _ _ _ _ (List.count_pos_iff.1 hpos)).resolve_left hni)
      obtain ⟨y, hy, e⟩ := List.mem_map.1 key
      exact List.mem_map.2 ⟨y, hy, by rw [← e]; rfl⟩

/-- The process of the back end does not subscribe to a sensor: its launch file has no topics. -/
theorem C131_back_end_no_sensor (b : BackProcess) (ho : Outside a) : ∀ t ∈ (backNode b).subscribes, t ∉ sensors a := by
  intro t ht hs
  unfold backNode node at ht
  obtain ⟨x, -, rfl⟩ := List.mem_map.1 ht
  exact ho _ hs x.1 rfl

/-- The process that only tracks features: it subscribes to the cameras and to nothing else, and to none of its own topics. -/
theorem C131_pipeline (a : Topics) (t : StereoTracking) (ho : Outside a) :
    (pipelineNode a t).subscribes = [(a.leftImage, .image), (a.rightImage, .image), (a.leftInfo, .cameraInfo),
      (a.rightInfo, .cameraInfo)] ∧ Connected a [pipelineNode a t] ∧
    ("/serpent/stereo/features", Msg.features) ∈ (pipelineNode a t).advertises := by
  have hsub : (pipelineNode a t).subscribes = [(a.leftImage, .image), (a.rightImage, .image), (a.leftInfo, .cameraInfo),
      (a.rightInfo, .cameraInfo)] := by
    simp [pipelineNode, node, stereoComponent, resolve, stereoRemaps, List.lookup]
  have hadv := pipeline_advertises a t
  refine ⟨hsub, ?_, ?_⟩
  · refine connected_of ho (A := (stereoComponent t).advertises) (by simp [hadv])
      (((stereo_sublist t).map Prod.fst).nodup (by decide +kernel)) fun x hx => .inl ?_
    simp only [subscriptions, List.flatMap_cons, List.flatMap_nil, List.append_nil, hsub, List.mem_cons, List.not_mem_nil,
      or_false] at hx
    rcases hx with rfl | rfl | rfl | rfl <;> simp [sensors]
  · rw [hadv]
    refine List.mem_map.2 ⟨("stereo/features", .features), by simp [stereoComponent], ?_⟩
    decide +kernel

/-! ### Other programs -/

/-- The node for metrics is connected exactly if pointclouds are registered. -/
theorem C131_metrics (h : single cv frames p = .ok s) (hn : singleNode a p s = .ok n) :
    (∀ t ∈ metricsNode.subscribes, publishers [n, metricsNode] t.1 = [t.2]) ↔
      p.bool "optimisation/factors/registration" true = true := by
  have hT := (C131_topics h hn).1
  have ht := hT ("/serpent/registration/transform", p.bool "optimisation/factors/registration" true) (by simp [topicTable])
  have hm : ∀ t, publishers [n, metricsNode] t = publishers [n] t ++ publishers [metricsNode] t := fun t => publishers_cons _ _ _
  have hm0 : ∀ t ∈ metricsNode.subscribes, publishers [metricsNode] t.1 = [] := by decide +kernel
  obtain ⟨l, hl, hA, -⟩ := single_node h hn
  have e4 := (C128_enabled h).2.2.2
  obtain ⟨-, hbe, -⟩ := single_eq_ok.mp h
  have e5 := (backend_shared hbe).2.2.2.1
  constructor
  · intro hc
    refine ht.1 (publishers_ne_nil.1 ?_)
    have := hc ("/serpent/registration/transform", .pose) (by simp [metricsNode])
    rw [hm, hm0 _ (by simp [metricsNode]), List.append_nil] at this
    rw [this]
    simp
  · intro hr t hmem
    have key : t ∈ n.advertises := by
      rw [hA]
      simp only [metricsNode, List.mem_cons, List.not_mem_nil, or_false] at hmem
      rcases hmem with rfl | rfl | rfl
      · refine List.mem_map.2 ⟨("output/path", .path), ?_, by decide +kernel⟩
        simp [advertised, backendComponent]
      · refine List.mem_map.2 ⟨("output/pose", .pose), ?_, by decide +kernel⟩
        simp [advertised, frontendComponent]
      · refine List.mem_map.2 ⟨("registration/transform", .pose), ?_, by decide +kernel⟩
        rw [← e5, e4, Option.isSome_iff_exists] at hr
        obtain ⟨fb, hr⟩ := hr
        simp [advertised, hr, lidarBackComponents, registrationComponent]
    rw [hm, hm0 t hmem, List.append_nil]
    have hx : ∃ x, t.1 = "/serpent/" ++ x := by
      rw [hA] at key
      obtain ⟨y, -, rfl⟩ := List.mem_map.1 key
      exact ⟨y.1, rfl⟩
    obtain ⟨x, hx⟩ := hx
    rw [hx]
    exact publishers_single h hn (by rw [← hx]; exact key)

/-- The nodes that analyse distances of tracks are connected exactly if tracks are published. -/
theorem C131_analysis (h : single cv frames p = .ok s) (hn : singleNode a p s = .ok n) :
    (∀ t ∈ subscriptions [distancesNode, analyserNode],
      (publishers [n, distancesNode, analyserNode] t.1).map Msg.wire = [t.2.wire]) ↔
      p.bool "optimisation/factors/stereo" true = true ∧ p.bool "debug/stereo/publish_points" false = true := by
  have hT := (C131_topics h hn).1
  have hO := (C131_topics h hn).2
  have ht := hT ("/serpent/stereo/track_points", p.bool "optimisation/factors/stereo" true &&
    p.bool "debug/stereo/publish_points" false) (by simp [topicTable])
  rw [Bool.and_eq_true] at ht
  have hm : ∀ t, publishers [n, distancesNode, analyserNode] t = publishers [n] t ++ publishers [distancesNode, analyserNode] t :=
    fun t => publishers_cons _ _ _
  obtain ⟨l, hl, hA, -⟩ := single_node h hn
  have hnone : publishers [n] "/serpent/stereo/track_points_with_distances" = [] := by
    by_contra hc
    have := hO _ (publishers_ne_nil.1 hc)
    simp [topicTable, cloudTopics] at this
  constructor
  · intro hc
    refine ht.1 (publishers_ne_nil.1 ?_)
    have := hc ("/serpent/stereo/track_points", .cloud .xyz) (by simp [subscriptions, distancesNode])
    rw [hm, show publishers [distancesNode, analyserNode] "/serpent/stereo/track_points" = [] by decide +kernel,
      List.append_nil] at this
    intro e
    rw [e] at this
    simp at this
  · rintro ⟨hs, hp⟩ t hmem
    simp only [subscriptions, distancesNode, analyserNode, List.flatMap_cons, List.flatMap_nil, List.append_nil, List.mem_append,
      List.mem_cons, List.not_mem_nil, or_false] at hmem
    rcases hmem with (rfl | rfl) | rfl
    · have key : ("/serpent/" ++ "stereo/track_points", Msg.cloud .xyz) ∈ n.advertises := by
        rw [hA]
        refine List.mem_map.2 ⟨("stereo/track_points", .cloud .xyz), ?_, by decide +kernel⟩
        obtain ⟨-, -, -, -, hst, -⟩ := single_eq_ok.mp h
        have hsome := stereo_isSome hst
        rw [hs, Option.isSome_iff_exists] at hsome
        obtain ⟨t, hsome⟩ := hsome
        rw [hsome] at hst
        have hx := stereo_eq_ok hst
        have hpub : t.publishPoints = true := by
          unfold stereo at hx
          obtain ⟨_, -, hx⟩ := bind_eq_ok hx
          obtain ⟨_, -, hx⟩ := bind_eq_ok hx
          obtain ⟨_, -, hx⟩ := bind_eq_ok hx
          injection hx with e
          rw [← e]
          exact hp
        simp [advertised, hsome, stereoComponents, stereoComponent, mem_onlyIf, hpub]
      have := publishers_single h hn key
      rw [show "/serpent/" ++ "stereo/track_points" = "/serpent/stereo/track_points" by decide +kernel] at this
      rw [hm, this, show publishers [distancesNode, analyserNode] "/serpent/stereo/track_points" = [] by decide +kernel]
      rfl
    · have key : ("/serpent/" ++ "frontend/deskewed_pointcloud", Msg.cloud .any) ∈ n.advertises := by
        rw [hA]
        exact List.mem_map.2 ⟨("frontend/deskewed_pointcloud", .cloud .any), by simp [advertised, frontendComponent],
          by decide +kernel⟩
      have := publishers_single h hn key
      rw [show "/serpent/" ++ "frontend/deskewed_pointcloud" = "/serpent/frontend/deskewed_pointcloud" by decide +kernel] at this
      rw [hm, this, show publishers [distancesNode, analyserNode] "/serpent/frontend/deskewed_pointcloud" = [] by decide +kernel]
      rfl
    · rw [hm, hnone]
      decide +kernel

/-- All topics that are recorded exist exactly if pointclouds are registered, features are tracked, statistics are published and
the distances of tracks are analysed. -/
theorem C131_recorded (h : single cv frames p = .ok s) (hn : singleNode a p s = .ok n) (analyse : Bool) :
    (∀ t ∈ recorded, publishers (n :: if analyse then [distancesNode, analyserNode] else []) t ≠ []) ↔
      p.bool "optimisation/factors/registration" true = true ∧ p.bool "optimisation/factors/stereo" true = true ∧
      p.bool "debug/stereo/publish_stats" false = true ∧ analyse = true := by
  have hT := (C131_topics h hn).1
  have hO := (C131_topics h hn).2
  have t1 := hT ("/serpent/registration/transform", p.bool "optimisation/factors/registration" true) (by simp [topicTable])
  have t2 := hT ("/serpent/stereo/statistics", p.bool "optimisation/factors/stereo" true &&
    p.bool "debug/stereo/publish_stats" false) (by simp [topicTable])
  rw [Bool.and_eq_true] at t2
  have t3 := hT ("/serpent/optimisation/odometry", true) (by simp [topicTable])
  have t4 := hT ("/serpent/optimisation/imu_biases", true) (by simp [topicTable])
  have t5 := hT ("/serpent/output/path", true) (by simp [topicTable])
  have hm : ∀ t, publishers (n :: if analyse then [distancesNode, analyserNode] else []) t =
      publishers [n] t ++ publishers (if analyse then [distancesNode, analyserNode] else []) t := fun t => publishers_cons _ _ _
  have hnone : publishers [n] "/serpent/stereo/track_points_with_distances/statistics" = [] := by
    by_contra hc
    have := hO _ (publishers_ne_nil.1 hc)
    simp [topicTable, cloudTopics] at this
  have off : ∀ t ∈ recorded, t ≠ "/serpent/stereo/track_points_with_distances/statistics" →
      publishers (if analyse then [distancesNode, analyserNode] else []) t = [] := by
    cases analyse <;> decide +kernel
  have hp : ∀ t ∈ recorded, t ≠ "/serpent/stereo/track_points_with_distances/statistics" →
      (publishers (n :: if analyse then [distancesNode, analyserNode] else []) t ≠ [] ↔ n.Publishes t) := by
    intro t ht hne
    rw [hm, off t ht hne, List.append_nil]
    exact publishers_ne_nil
  have hl : publishers (n :: if analyse then [distancesNode, analyserNode] else [])
      "/serpent/stereo/track_points_with_distances/statistics" ≠ [] ↔ analyse = true := by
    rw [hm, hnone, List.nil_append]
    cases analyse <;> decide +kernel
  constructor
  · intro hc
    have c1 := t1.1
      ((hp "/serpent/registration/transform" (by simp [recorded]) (by decide +kernel)).1 (hc "/serpent/registration/transform" (by simp [recorded])))
    have c2 := t2.1
      ((hp "/serpent/stereo/statistics" (by simp [recorded]) (by decide +kernel)).1 (hc "/serpent/stereo/statistics" (by simp [recorded])))
    exact ⟨c1, c2.1, c2.2, hl.1 (hc _ (by simp [recorded]))⟩
  · rintro ⟨c1, c2, c3, c4⟩ t ht
    by_cases he : t = "/serpent/stereo/track_points_with_distances/statistics"
    · rw [he]
      exact hl.2 c4
    · rw [hp t ht he]
      simp only [recorded, List.mem_cons, List.not_mem_nil, or_false] at ht
      rcases ht with rfl | rfl | rfl | rfl | rfl | rfl
      · exact t3.2 rfl
      · exact t4.2 rfl
      · exact t1.2 c1
      · exact t2.2 ⟨c2, c3⟩
      · exact absurd rfl he
      · exact t5.2 rfl

/-- There are options with which everything exists that RViz shows. -/
theorem C131_shown_by_rviz : ∃ p s n, single ⟨4, 4⟩ shippedFrames p = .ok s ∧ singleNode a p s = .ok n ∧
    ∀ t ∈ shownByRviz, n.Publishes t := by
  let p := (((shippedServer.set "debug/registration/publish_clouds" (.bool true)).set
    "debug/optimisation/publish_stereo_points" (.bool true)).set "debug/stereo/publish_intermediate_results" (.bool true)).set
    "debug/stereo/publish_points" (.bool true)
  have hs : (match single ⟨4, 4⟩ shippedFrames p with | .ok _ => true | _ => false) = true := by decide +kernel
  have htab : ∀ t ∈ shownByRviz, (t, true) ∈ topicTable p := by decide +kernel
  split at hs
  · rename_i s hs'
    obtain ⟨n, hn⟩ := C131_starts hs' a
    exact ⟨p, s, n, hs', hn, fun t ht => ((C131_topics hs' hn).1 (t, true) (htab t ht)).2 rfl⟩
  · cases hs

/-- C131 fails for the images that rqt shows: four of them are never published, neither by the system nor by the process that only
tracks features. -/
theorem C131_fails_shown_by_rqt : ∃ topics : List String, topics.length = 4 ∧ topics ⊆ shownByRqt ∧
    (∀ cv frames p s a n, single cv frames p = .ok s → singleNode a p s = .ok n → ∀ t ∈ topics, ¬ n.Publishes t) ∧
    ∀ a t, ∀ x ∈ topics, ¬ (pipelineNode a t).Publishes x := by
  refine ⟨["/serpent/stereo/distance_filtered_matches/image", "/serpent/stereo/left/merged_keypoints/image",
    "/serpent/stereo/raw_matches/image", "/serpent/stereo/right/merged_keypoints/image"], rfl, by simp [shownByRqt], ?_, ?_⟩
  · intro cv frames p s a n h hn t ht hp
    have := (C131_topics h hn).2 t hp
    have hno : ∀ t ∈ ["/serpent/stereo/distance_filtered_matches/image", "/serpent/stereo/left/merged_keypoints/image",
      "/serpent/stereo/raw_matches/image", "/serpent/stereo/right/merged_keypoints/image"],
      t ∉ (allMax false).map fun t => "/serpent/" ++ t.1 := by decide +kernel
    obtain ⟨l, hl, hA, -⟩ := single_node h hn
    obtain ⟨u, hpart⟩ := table_part h hl
    rw [hpart.1] at this
    refine hno t ht ?_
    cases u
    · exact this
    · exact this
  · intro a t x hx hp
    unfold Node.Publishes at hp
    rw [pipeline_advertises, List.map_map] at hp
    have hno : ∀ t ∈ ["/serpent/stereo/distance_filtered_matches/image", "/serpent/stereo/left/merged_keypoints/image",
      "/serpent/stereo/raw_matches/image", "/serpent/stereo/right/merged_keypoints/image"],
      t ∉ stereoMax.map (Prod.fst ∘ absolute) := by decide +kernel
    exact hno x hx (((stereo_sublist t).map _).subset hp)

/-- C131 fails for the argument `output` of the launch file of the range filter: it has no effect. -/
theorem C131_fails_range_filter_output : ∃ input output : String, ¬ (rangeFilterNode input output).Publishes output ∧
    ∀ output', rangeFilterNode input output' = rangeFilterNode input output := by
  refine ⟨"/points", "/near", ?_, fun _ => rfl⟩
  unfold Node.Publishes
  decide +kernel

/-! ### The system as it is shipped -/

/-- The default topics of the launch files, serpent.launch:3-9. -/
def defaultTopics : Topics :=
  ⟨"/imu", "/pointcloud", "/stereo/left/image", "/stereo/right/image", "/stereo/left/camera_info", "/stereo/right/camera_info",
    "/barometer"⟩

theorem outside_of {a : Topics} (h : ∀ t ∈ sensors a, t.1.toList.take 9 ≠ "/serpent/".toList) : Outside a := by
  intro t ht x e
  refine h t ht ?_
  rw [e, String.toList_append]
  rfl

/-- The default topics are outside of the namespace of the system. -/
theorem defaultTopics_outside : Outside defaultTopics := outside_of (by decide +kernel)

/-- With the configuration files and the default topics, the system starts as one process and as two; all is connected; five filters
and the other components give more than twenty topics. -/
example : ∃ s n f b m, single ⟨4, 4⟩ shippedFrames shippedServer = .ok s ∧ singleNode defaultTopics shippedServer s = .ok n ∧
    Connected defaultTopics [n] ∧ 20 < n.advertises.length ∧ frontProcess shippedFrames shippedServer = .ok f ∧
    backProcess ⟨4, 4⟩ shippedFrames shippedServer = .ok b ∧ frontNode defaultTopics shippedServer f = .ok m ∧
    Connected defaultTopics [m, backNode b] := by
  have hs : (match single ⟨4, 4⟩ shippedFrames shippedServer with
    | .ok s => (match singleNode defaultTopics shippedServer s with | .ok n => decide (20 < n.advertises.length) | _ => false)
    | _ => false) = true := by decide +kernel
  split at hs
  · rename_i s h
    split at hs
    · rename_i n hn
      obtain ⟨hf, hb⟩ := C128_split_same h
      obtain ⟨m, hm, -⟩ := C131_split_same h hn hf hb
      exact ⟨s, n, _, _, m, h, hn, C131_connected h hn defaultTopics_outside, of_decide_eq_true hs, hf, hb, hm,
        C131_split_connected hf hb hm defaultTopics_outside⟩
    · cases hs
  · cases hs

/-- What is connected is not connected for a topic of the system given as a sensor: with the optimised odometry as the topic of
the IMU, the front end gets messages of another type. -/
example : ¬ Outside { defaultTopics with imu := "/serpent/optimisation/odometry" } := fun h =>
  h ("/serpent/optimisation/odometry", .imu) (by simp [sensors]) "optimisation/odometry" (by decide +kernel)

end Wiring

end Serpent
