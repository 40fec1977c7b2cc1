import Verif.Lemmas.ParametersValid

/-!
# C126: the nodes start exactly with valid options

`Valid` (Spec/ParametersValid.lean) lists the words and ranges of the comments in the configuration files. Words that the back end
hands to GTSAM as they are (`isam2/factorization`, the mode of the trust region) are not part of it.
-/

namespace Serpent

namespace Params

variable {cv : OpenCv} {frames : String → Bool} {p : Server}

/-! ### Exactly the valid options are accepted -/

/-- The node starts if and only if its options are valid. -/
theorem C126_starts_iff_valid : (∃ s, single cv frames p = .ok s) ↔ Valid cv frames p := starts_single

/-- The process of the front end only looks at its own options. -/
theorem C126_front_end_starts : (∃ s, frontProcess frames p = .ok s) ↔ FrontendValid frames p ∧
    p.str "pointcloud_type" "OUSTER" ∈ ["OUSTER", "CUSTOM"] ∧
    (p.bool "optimisation/factors/registration" true = true → FilterValid p ∧
      p.str "normal_estimation/method" "knn" ∈ ["knn", "radius"] ∧
      p.str "registration_covariance/method" "CENSI" ∈ ["CONSTANT", "CENSI", "LLS"] ∧
      p.str "registration_covariance/point_covariance/method" "RANGE" ∈ ["CONSTANT", "VOXEL_SIZE", "RANGE", "RANGE_BIAS"]) ∧
    1 ≤ p.int "threads" 4 := starts_frontProcess

/-- The process of the back end only looks at its own options. -/
theorem C126_back_end_starts : (∃ s, backProcess cv frames p = .ok s) ↔ BackendValid frames p ∧
    (p.bool "optimisation/factors/registration" true = true → MappingValid p ∧ MethodValid p "s2s/" ∧
      (p.bool "s2m/enabled" true = true → MethodValid p "s2m/") ∧ CovarianceValid p ∧ frames "lidar" = true) ∧
    (p.bool "optimisation/factors/stereo" true = true → StereoValid cv p) ∧ 1 ≤ p.int "threads" 4 := starts_backProcess

/-- The process that only tracks features. -/
theorem C126_stereo_pipeline_starts : (∃ s, stereoProcess cv p = .ok s) ↔ StereoValid cv p ∧ 1 ≤ p.int "threads" 4 :=
  starts_stereoProcess

/-- Options of modules that are switched off are not looked at: without pointclouds and images only the front end, the back end, the
format and the number of threads count. -/
theorem C126_disabled_modules (hf : Flags p [("optimisation/factors/registration", false), ("optimisation/factors/stereo", false)]) :
    (∃ s, single cv frames p = .ok s) ↔ FrontendValid frames p ∧ BackendValid frames p ∧
      p.str "pointcloud_type" "OUSTER" ∈ ["OUSTER", "CUSTOM"] ∧ 1 ≤ p.int "threads" 4 := by
  have hf := flags hf
  simp only [List.forall_mem_cons] at hf
  rw [C126_starts_iff_valid]
  refine ⟨fun h => ⟨h.frontend, h.backend, h.format, h.threads⟩, fun h => ⟨h.1, h.2.1, h.2.2.1, fun e => ?_, fun e => ?_, h.2.2.2⟩⟩
  · rw [hf.1] at e; cases e
  · rw [hf.2.1] at e; cases e

/-! ### Options that are not valid are refused with an exception -/

/-- If the options are not valid, the node ends with an exception; numbers of points that do not fit into an unsigned integer are
left out (see `C126_fails_negative_count`). -/
theorem C126_refused_partial (h : ¬Valid cv frames p)
    (hc : p.bool "optimisation/factors/registration" true = true →
      CountValid (p.double "voxel_grid_filter/minimum_points_number_per_voxel" 1) ∧
      CountValid (p.double "mapping/voxel_grid_filter/minimum_points_number_per_voxel" 1)) :
    single cv frames p = .throws := by
  cases hs : single cv frames p with
  | ok s => exact absurd (C126_starts_iff_valid.mp ⟨s, hs⟩) h
  | throws => rfl
  | ub =>
    obtain ⟨h1, h2⟩ := ub_single hs
    obtain ⟨h3, h4⟩ := hc h1
    rcases h2 with h2 | h2
    · exact absurd h3 h2.2
    · exact absurd h4 h2

/-- **The property fails** for a minimum number of points of a voxel that is negative (or 2³² or more): the conversion to an
unsigned integer is undefined; the options are not refused. Here with the configuration files and `-1`. -/
theorem C126_fails_negative_count :
    single ⟨4, 4⟩ shippedFrames (shippedServer.set "voxel_grid_filter/minimum_points_number_per_voxel" (.int (-1))) = .ub ∧
    single ⟨4, 4⟩ shippedFrames (shippedServer.set "mapping/voxel_grid_filter/minimum_points_number_per_voxel" (.int (-1))) = .ub := by
  constructor <;> decide +kernel

/-- A negative number of points can only be undefined, never accepted: a node that starts has numbers that fit. -/
theorem C126_count_fits {s : Single} (h : single cv frames p = .ok s) (hr : Flag p "optimisation/factors/registration" true)
    (hv : Flag p "voxel_grid_filter/enabled" true) {x : ℚ} (hx : Number p "voxel_grid_filter/minimum_points_number_per_voxel" x) :
    -1 < x ∧ x < 2 ^ 32 := by
  have := ((C126_starts_iff_valid.mp ⟨s, h⟩).lidar (bool_flag hr _)).filter.voxel (bool_flag hv _)
  rwa [double_number hx] at this

/-! ### Words that are not valid, but accepted -/

/-- The words of the comment for `stereo_factors/robust/type`. -/
def robustTypes : List String := ["cauchy", "dcs", "fair", "geman_mcclure", "huber", "l2_with_dead_zone", "null", "tukey", "welsch"]

/-- **The property fails** for the robust estimator of stereo factors: with any other word the node starts, and the first
optimisation with a stereo factor calls a null pointer. -/
theorem C126_fails_robust_type (h : Valid cv frames p) (ht : Flag p "optimisation/factors/stereo" true)
    (he : Flag p "stereo_factors/robust/enabled" true) {w : String} (hw : Word p "stereo_factors/robust/type" w)
    (hn : w ∉ robustTypes) :
    ∃ s, single cv frames p = .ok s ∧ ∃ f, s.backend.stereo = some f ∧ f.use = .ub := by
  obtain ⟨s, hs⟩ := C126_starts_iff_valid.mpr h
  refine ⟨s, hs, ?_⟩
  obtain ⟨-, hbe, -⟩ := single_eq_ok.mp hs
  unfold backend at hbe
  split at hbe
  · cases hbe
  · obtain ⟨i, -, hbe⟩ := bind_eq_ok hbe
    obtain ⟨f, hf, hbe⟩ := bind_eq_ok hbe
    obtain ⟨bb, -, hbe⟩ := bind_eq_ok hbe
    obtain ⟨m, -, hbe⟩ := bind_eq_ok hbe
    injection hbe with e
    rw [← e]
    simp only [robustTypes, List.mem_cons, List.not_mem_nil, or_false, not_or] at hn
    simp only [stereoFactorParams, bool_flag ht, if_true] at hf
    split at hf
    · cases hf
    · simp only [robustnessParams, bool_flag he, if_true, estimatorParams, str_word hw, hn, if_false, Outcome.bind_ok,
        Outcome.ok.injEq] at hf
      exact ⟨_, hf.symm, rfl⟩

/-- With the words of the comment the estimator exists. -/
theorem C126_robust_type_partial {s : Single} (h : single cv frames p = .ok s) {w : String} (hw : Word p "stereo_factors/robust/type" w)
    (hn : w ∈ robustTypes) {f : StereoFactors} (hf : s.backend.stereo = some f) : f.use = .ok () := by
  obtain ⟨-, hbe, -⟩ := single_eq_ok.mp h
  unfold backend at hbe
  split at hbe
  · cases hbe
  · obtain ⟨i, -, hbe⟩ := bind_eq_ok hbe
    obtain ⟨g, hg, hbe⟩ := bind_eq_ok hbe
    obtain ⟨bb, -, hbe⟩ := bind_eq_ok hbe
    obtain ⟨m, -, hbe⟩ := bind_eq_ok hbe
    injection hbe with e
    rw [← e] at hf
    subst hf
    unfold stereoFactorParams at hg
    split at hg
    · split at hg
      · cases hg
      · obtain ⟨r, hr, hg⟩ := bind_eq_ok hg
        injection hg with hg
        injection hg with hg
        unfold robustnessParams at hr
        split at hr
        · obtain ⟨o, ho, hr⟩ := bind_eq_ok hr
          injection hr with hr
          have hne : o ≠ none := by
            rintro rfl
            unfold estimatorParams at ho
            rw [str_word hw] at ho
            simp only [robustTypes, List.mem_cons, List.not_mem_nil, or_false] at hn
            rcases hn with rfl | rfl | rfl | rfl | rfl | rfl | rfl | rfl | rfl <;> simp (config := { decide := true }) at ho <;>
              (try (obtain ⟨a, -, ho⟩ := bind_eq_ok ho; cases ho))
          subst hr
          rw [← hg]
          cases o with
          | none => exact absurd rfl hne
          | some o => rfl
        · injection hr with hr
          subst hr
          rw [← hg]
          rfl
    · cases hg

/-- **The property fails** for the reference frame of the IMU: every word but `NED` is accepted and treated as `NWU`, with any other
options. -/
theorem C126_fails_reference_frame (w : String) (hw : w ≠ "NED") : single cv frames (p.set "imu/reference_frame" (.string w)) =
    single cv frames (p.set "imu/reference_frame" (.string "NWU")) := by
  have h : ∀ k, k ≠ "imu/reference_frame" → p.set "imu/reference_frame" (.string w) k = p.set "imu/reference_frame" (.string "NWU") k := by
    intro k hk; simp only [Server.set, if_neg hk]
  have other : ∀ l : List Read, (∀ r ∈ l, r.name ≠ "imu/reference_frame") → ∀ r ∈ l,
      r.Same (p.set "imu/reference_frame" (.string w)) (p.set "imu/reference_frame" (.string "NWU")) :=
    fun l hl r hr => same_of_eq r (h _ (hl r hr))
  have hno : ∀ l : List Read, "imu/reference_frame" ∉ l.map Read.name → ∀ r ∈ l, r.name ≠ "imu/reference_frame" :=
    fun l hl r hr e => hl (List.mem_map.mpr ⟨r, hr, e⟩)
  have hB := backend_same (frames := frames) (other backendReads (hno _ (by decide +kernel)))
  have hF := formatter_same (other formatterReads (hno _ (by decide +kernel)))
  have hS := stereo_same (cv := cv) (other stereoReads (hno _ (by decide +kernel)))
  have hN := normals_same (other normalsReads (hno _ (by decide +kernel)))
  have hM := mapping_same (other mappingReads (hno _ (by decide +kernel)))
  have hI := filter_same (other filterReads (hno _ (by decide +kernel)))
  have hR := fun u => registration_same (frames := frames) (u := u) (other (methodReads "s2s/") (hno _ (by decide +kernel)))
    (other (methodReads "s2m/") (hno _ (by decide +kernel))) (other registrationReads (hno _ (by decide +kernel)))
  have hb : ∀ k d, k ≠ "imu/reference_frame" → (p.set "imu/reference_frame" (.string w)).bool k d =
      (p.set "imu/reference_frame" (.string "NWU")).bool k d := fun k d hk => by simp only [Server.bool, h k hk]
  have hd : ∀ k d, k ≠ "imu/reference_frame" → (p.set "imu/reference_frame" (.string w)).double k d =
      (p.set "imu/reference_frame" (.string "NWU")).double k d := fun k d hk => by simp only [Server.double, h k hk]
  have hi : ∀ k d, k ≠ "imu/reference_frame" → (p.set "imu/reference_frame" (.string w)).int k d =
      (p.set "imu/reference_frame" (.string "NWU")).int k d := fun k d hk => by simp only [Server.int, h k hk]
  have hs : ∀ k d, k ≠ "imu/reference_frame" → (p.set "imu/reference_frame" (.string w)).str k d =
      (p.set "imu/reference_frame" (.string "NWU")).str k d := fun k d hk => by simp only [Server.str, h k hk]
  have hw1 : ∀ v d, (p.set "imu/reference_frame" (.string v)).str "imu/reference_frame" d = v := by
    intro v d; simp only [Server.str, Server.set, if_true]
  have hE : frontend frames (p.set "imu/reference_frame" (.string w)) = frontend frames (p.set "imu/reference_frame" (.string "NWU")) := by
    unfold frontend barometerOverwriteParams imuOverwriteParams frontendPreintegration
    simp only [hw1, hw]
    simp (config := { decide := true }) only [hb, hd, hs, ne_eq]
  have hL : singleLidar frames (p.set "imu/reference_frame" (.string w)) =
      singleLidar frames (p.set "imu/reference_frame" (.string "NWU")) := by
    unfold singleLidar unitVectors filterIfEnabled
    simp (config := { decide := true }) only [hI, hN, hM, hR, hb, hs, ne_eq]
  have hT : threadCount (p.set "imu/reference_frame" (.string w)) = threadCount (p.set "imu/reference_frame" (.string "NWU")) := by
    unfold threadCount
    simp (config := { decide := true }) only [hi, ne_eq]
  have hG : stereoIfEnabled cv (p.set "imu/reference_frame" (.string w)) =
      stereoIfEnabled cv (p.set "imu/reference_frame" (.string "NWU")) := by
    unfold stereoIfEnabled
    simp (config := { decide := true }) only [hS, hb, ne_eq]
  unfold single
  rw [hE, hB, hF, hL, hG, hT]

/-- **The property fails** for the threads that estimate normals: a negative number is accepted and becomes a number close to 2³². -/
theorem C126_fails_negative_threads (h : Valid cv frames p) (hr : Flag p "optimisation/factors/registration" true) {n : Nat}
    (hn : n < 2 ^ 32) (hw : Whole p "normal_estimation/threads" (-(n + 1 : Int))) :
    ∃ s f b, single cv frames p = .ok s ∧ s.lidar = some (f, b) ∧ f.normals.threads = 2 ^ 32 - 1 - n := by
  obtain ⟨s, hs⟩ := C126_starts_iff_valid.mpr h
  obtain ⟨-, -, -, hl, -⟩ := single_eq_ok.mp hs
  cases hlid : s.lidar with
  | none =>
    rw [hlid] at hl
    unfold singleLidar at hl
    rw [if_pos (bool_flag hr _)] at hl
    obtain ⟨_, -, hl⟩ := bind_eq_ok hl
    obtain ⟨_, -, hl⟩ := bind_eq_ok hl
    obtain ⟨_, -, hl⟩ := bind_eq_ok hl
    obtain ⟨_, -, hl⟩ := bind_eq_ok hl
    obtain ⟨_, -, hl⟩ := bind_eq_ok hl
    cases hl
  | some l =>
    obtain ⟨f, b⟩ := l
    rw [hlid] at hl
    obtain ⟨-, -, hN, -⟩ := lidar_eq_ok hl
    obtain ⟨k, -, hN⟩ := bind_eq_ok hN
    injection hN with hN
    refine ⟨s, f, b, hs, hlid, ?_⟩
    have e : wrapUnsigned (-(n + 1 : Int)) = 2 ^ 32 - 1 - n := by unfold wrapUnsigned; omega
    rw [← hN]
    rw [int_whole hw, e]

/-! ### Servers that meet the hypotheses -/

/-- The configuration files are valid, and so is a server with no options at all. -/
theorem C126_shipped_valid : Valid ⟨4, 4⟩ shippedFrames shippedServer ∧ Valid ⟨4, 4⟩ shippedFrames fun _ => none := by
  have h : ∀ p : Server, (match single ⟨4, 4⟩ shippedFrames p with | .ok _ => true | _ => false) = true →
      Valid ⟨4, 4⟩ shippedFrames p := by
    intro p h
    refine C126_starts_iff_valid.mp ?_
    cases hs : single ⟨4, 4⟩ shippedFrames p with
    | ok s => exact ⟨s, rfl⟩
    | throws => rw [hs] at h; cases h
    | ub => rw [hs] at h; cases h
  exact ⟨h _ (by decide +kernel), h _ (by decide +kernel)⟩

/-- With one word or number changed they are not. -/
theorem C126_shipped_changed : ∀ e ∈ [("threads", Value.int 0), ("pointcloud_type", .string "VELODYNE"),
    ("normal_estimation/method", .string "KNN"), ("mapping/frame_extraction_number", .int 0), ("s2s/method", .string "FAST_GICP"),
    ("s2m/fast_gicp/regularization_method", .string "plane"), ("registration_covariance/method", .string "censi"),
    ("stereo_tracking/detector/type", .string "gftt"), ("stereo_tracking/sparse_optical_flow/win_size", .ints [21]),
    ("stereo_tracking/stereo_keypoint_matcher/window_size/width", .int 8),
    ("stereo_tracking/stereo_keypoint_matcher/ratio", .double 1), ("mdc/rotation", .bool false),
    ("barometer/noise/barometer", .double 0), ("isam2/optimization", .string "LM"),
    ("stereo_factors/left_cam_frame", .string "left"), ("stereo_factors/robust/huber/reweight_scheme", .string "block"),
    ("barometer/noise/barometer_bias", .double 0)],
    single ⟨4, 4⟩ shippedFrames (shippedServer.set e.1 e.2) = .throws := by
  decide +kernel

/-- A misspelt robust estimator in the configuration files. -/
example : ∃ p : Server, Valid ⟨4, 4⟩ shippedFrames p ∧ Flag p "optimisation/factors/stereo" true ∧
    Flag p "stereo_factors/robust/enabled" true ∧ Word p "stereo_factors/robust/type" "Huber" ∧ "Huber" ∉ robustTypes := by
  refine ⟨shippedServer.set "stereo_factors/robust/type" (.string "Huber"), ?_, ?_, ?_, ?_, ?_⟩
  · refine C126_starts_iff_valid.mp ?_
    have h : (match single ⟨4, 4⟩ shippedFrames (shippedServer.set "stereo_factors/robust/type" (.string "Huber")) with
      | .ok _ => true | _ => false) = true := by decide +kernel
    cases hs : single ⟨4, 4⟩ shippedFrames (shippedServer.set "stereo_factors/robust/type" (.string "Huber")) with
    | ok s => exact ⟨s, rfl⟩
    | throws => rw [hs] at h; cases h
    | ub => rw [hs] at h; cases h
  all_goals first | decide +kernel | (unfold Flag; decide +kernel) | (unfold Word; decide +kernel)

/-- A negative number of threads in the configuration files. -/
example : ∃ p : Server, Valid ⟨4, 4⟩ shippedFrames p ∧ Flag p "optimisation/factors/registration" true ∧
    Whole p "normal_estimation/threads" (-((0 : Nat) + 1 : Int)) := by
  refine ⟨shippedServer.set "normal_estimation/threads" (.int (-1)), ?_, ?_, ?_⟩
  · refine C126_starts_iff_valid.mp ?_
    have h : (match single ⟨4, 4⟩ shippedFrames (shippedServer.set "normal_estimation/threads" (.int (-1))) with
      | .ok _ => true | _ => false) = true := by decide +kernel
    cases hs : single ⟨4, 4⟩ shippedFrames (shippedServer.set "normal_estimation/threads" (.int (-1))) with
    | ok s => exact ⟨s, rfl⟩
    | throws => rw [hs] at h; cases h
    | ub => rw [hs] at h; cases h
  all_goals first | (unfold Flag; decide +kernel) | (unfold Whole; decide +kernel)

end Params

end Serpent
