import Verif.Lemmas.Parameters

/-!
# C125: options that are set take effect, for stereo images, the front end and the back end
-/

namespace Serpent

namespace Params

variable {cv : OpenCv} {frames : String → Bool} {p : Server} {s : Single}

/-! ### Stereo images -/

theorem stereo_parts {t : StereoTracking} (h : single cv frames p = .ok s) (ht : s.stereo = some t) :
    detectorParams cv p = .ok t.detector ∧ flowParams p = .ok t.flow ∧ matcherParams p = .ok t.matcher ∧
      stereo cv p = .ok t := by
  obtain ⟨-, -, -, -, hs, -⟩ := single_eq_ok.mp h
  rw [ht] at hs
  have hs := stereo_eq_ok hs
  have hs' := hs
  obtain ⟨a, ha, hs⟩ := bind_eq_ok hs
  obtain ⟨b, hb, hs⟩ := bind_eq_ok hs
  obtain ⟨c, hc, hs⟩ := bind_eq_ok hs
  cases hs
  exact ⟨ha, hb, hc, hs'⟩

/-- The detector FAST. -/
theorem C125_fast {t : StereoTracking} (h : single cv frames p = .ok s) (ht : s.stereo = some t) {w : String} {n : Int} {b : Bool}
    (hw : Words p [("stereo_tracking/detector/type", "FAST"), ("stereo_tracking/detector/fast/type", w)])
    (hn : Whole p "stereo_tracking/detector/fast/threshold" n) (hb : Flag p "stereo_tracking/detector/fast/nonmax_suppression" b)
    {k : FastType} (hk : (w, k) ∈ [("TYPE_5_8", .t5_8), ("TYPE_7_12", .t7_12), ("TYPE_9_16", FastType.t9_16)]) :
    t.detector = .fast n b k := by
  obtain ⟨hd, -⟩ := stereo_parts h ht
  have hw := words hw
  simp only [List.forall_mem_cons] at hw
  have e : toFastType w = .ok k := by
    simp only [List.mem_cons, List.not_mem_nil, or_false, Prod.mk.injEq] at hk
    rcases hk with ⟨rfl, rfl⟩ | ⟨rfl, rfl⟩ | ⟨rfl, rfl⟩ <;> rfl
  simp only [detectorParams, hw, if_true, fastParams, int_whole hn, bool_flag hb, e, Outcome.bind_ok, Outcome.ok.injEq] at hd
  exact hd.symm

/-- The detector GFTT. -/
theorem C125_gftt {t : StereoTracking} (h : single cv frames p = .ok s) (ht : s.stereo = some t) {g : Gftt}
    (hw : Word p "stereo_tracking/detector/type" "GFTT")
    (hn : Wholes p [("stereo_tracking/detector/gftt/max_corners", g.maxCorners),
      ("stereo_tracking/detector/gftt/block_size", g.blockSize)])
    (hx : Numbers p [("stereo_tracking/detector/gftt/quality_level", g.qualityLevel),
      ("stereo_tracking/detector/gftt/min_distance", g.minDistance), ("stereo_tracking/detector/gftt/k", g.k)])
    (hb : Flag p "stereo_tracking/detector/gftt/use_harris_detector" g.useHarrisDetector) : t.detector = .gftt g := by
  obtain ⟨hd, -⟩ := stereo_parts h ht
  have hn := wholes hn
  have hx := numbers hx
  simp only [List.forall_mem_cons] at hn hx
  simp only [detectorParams, str_word hw, gfttParams, hn, hx, bool_flag hb] at hd
  simpa using hd.symm

/-- The detector ORB. -/
theorem C125_orb {t : StereoTracking} (h : single cv frames p = .ok s) (ht : s.stereo = some t) {o : Orb} {w : String}
    (hw : Words p [("stereo_tracking/detector/type", "ORB"), ("stereo_tracking/detector/orb/score_type", w)])
    (hk : (w, o.scoreType) ∈ [("HARRIS_SCORE", .harris), ("FAST_SCORE", ScoreType.fast)])
    (hn : Wholes p [("stereo_tracking/detector/orb/num_features", o.numFeatures),
      ("stereo_tracking/detector/orb/num_levels", o.numLevels), ("stereo_tracking/detector/orb/edge_threshold", o.edgeThreshold),
      ("stereo_tracking/detector/orb/first_level", o.firstLevel), ("stereo_tracking/detector/orb/wta_k", o.wtaK),
      ("stereo_tracking/detector/orb/patch_size", o.patchSize),
      ("stereo_tracking/detector/orb/fast_threshold", o.fastThreshold)])
    (hx : Number p "stereo_tracking/detector/orb/scale_factor" o.scaleFactor) : t.detector = .orb o := by
  obtain ⟨hd, -⟩ := stereo_parts h ht
  have hn := wholes hn
  have hw := words hw
  simp only [List.forall_mem_cons] at hn hw
  have e : toScoreType w = .ok o.scoreType := by
    simp only [List.mem_cons, List.not_mem_nil, or_false, Prod.mk.injEq] at hk
    rcases hk with ⟨rfl, e⟩ | ⟨rfl, e⟩ <;> rw [e] <;> rfl
  simp only [detectorParams, hw, orbParams, hn, double_number hx, e] at hd
  simpa [Outcome.bind_ok] using hd.symm

/-- The detector SIFT: with the name that the code reads. -/
theorem C125_sift_partial {t : StereoTracking} (h : single cv frames p = .ok s) (ht : s.stereo = some t) {k : Sift}
    (hw : Word p "stereo_tracking/detector/type" "SIFT")
    (hn : Wholes p [("stereo_tracking/detector/sift/num_features", k.numFeatures),
      ("stereo_tracking/detector/sift/num_octave_layers", k.numOctaveLayers)])
    (hx : Numbers p [("stereo_tracking/detector/sift/constrast_threshold", k.contrastThreshold),
      ("stereo_tracking/detector/sift/edge_threshold", k.edgeThreshold), ("stereo_tracking/detector/sift/sigma", k.sigma)]) :
    t.detector = .sift k := by
  obtain ⟨hd, -⟩ := stereo_parts h ht
  have hn := wholes hn
  have hx := numbers hx
  simp only [List.forall_mem_cons] at hn hx
  simp only [detectorParams, str_word hw, siftParams, hn, hx] at hd
  cases hcv : cv.sift
  · simp [hcv] at hd
  · simpa [hcv] using hd.symm

/-- **The property fails** for SIFT with OpenCV 5.0 to 5.3, which has it ("requires OpenCV >= 4.4.0"): the node does not start. -/
theorem C125_fails_sift_opencv5 (n : Nat) (hn : n < 4) (hs : Flag p "optimisation/factors/stereo" true)
    (hw : Word p "stereo_tracking/detector/type" "SIFT") : ∀ s, single ⟨5, n⟩ frames p ≠ .ok s := by
  intro s h
  obtain ⟨-, -, -, -, ht, -⟩ := single_eq_ok.mp h
  have hc : OpenCv.sift ⟨5, n⟩ = false := by
    simp only [OpenCv.sift, Bool.and_eq_false_iff, decide_eq_false_iff_not]
    right; omega
  simp [stereoIfEnabled, bool_flag hs, stereo, detectorParams, str_word hw, hc, Outcome.bind_throws] at ht

/-- **The property fails** for the optical flow: as long as the names that the code reads are left out — they are not in the
configuration files — it is run with these parameters, whatever `pyrlk/...` says. -/
theorem C125_fails_optical_flow {t : StereoTracking} (h : single cv frames p = .ok s) (ht : s.stereo = some t)
    (hn : ∀ k ∈ ["win_size", "max_level", "term_criteria/type", "term_criteria/max_count", "term_criteria/epsilon", "flags",
      "min_eig_threshold"], p ("stereo_tracking/sparse_optical_flow/" ++ k) = none) :
    t.flow = ⟨(21, 21), 3, .countEps, 30, 0.01, 0, 0⟩ := by
  obtain ⟨-, hf, -⟩ := stereo_parts h ht
  simp only [List.forall_mem_cons, String.reduceAppend] at hn
  unfold flowParams at hf
  split at hf
  · simp [Server.ints, Server.str, Server.int, Server.double, hn, toSize, toCriteria, Outcome.bind_ok] at hf
    exact hf.symm
  · cases hf

/-- The optical flow: with the names that the code reads. -/
theorem C125_optical_flow_partial {t : StereoTracking} (h : single cv frames p = .ok s) (ht : s.stereo = some t)
    {w : String} {x y : Int} {rest : List Int} {l n g : Int} {e m : ℚ}
    (hs : p "stereo_tracking/sparse_optical_flow/win_size" = some (.ints (x :: y :: rest)))
    (hw : Word p "stereo_tracking/sparse_optical_flow/term_criteria/type" w)
    {c : Criteria} (hc : (w, c) ∈ [("COUNT", .count), ("MAX_ITER", .count), ("EPS", .eps), ("COUNT+EPS", .countEps),
      ("MAX_ITER+EPS", Criteria.countEps)])
    (hn : Wholes p [("stereo_tracking/sparse_optical_flow/max_level", l),
      ("stereo_tracking/sparse_optical_flow/term_criteria/max_count", n), ("stereo_tracking/sparse_optical_flow/flags", g)])
    (hx : Numbers p [("stereo_tracking/sparse_optical_flow/term_criteria/epsilon", e),
      ("stereo_tracking/sparse_optical_flow/min_eig_threshold", m)]) :
    t.flow = ⟨(x, y), l, c, n, e, g, m⟩ := by
  obtain ⟨-, hf, -⟩ := stereo_parts h ht
  have hn := wholes hn
  have hx := numbers hx
  simp only [List.forall_mem_cons] at hn hx
  have e : toCriteria w = .ok c := by
    simp only [List.mem_cons, List.not_mem_nil, or_false, Prod.mk.injEq] at hc
    rcases hc with ⟨rfl, rfl⟩ | ⟨rfl, rfl⟩ | ⟨rfl, rfl⟩ | ⟨rfl, rfl⟩ | ⟨rfl, rfl⟩ <;> simp [toCriteria]
  unfold flowParams at hf
  split at hf
  · simp only [Server.ints, hs, toSize, str_word hw, e, hn, hx, Outcome.bind_ok, Outcome.ok.injEq] at hf
    exact hf.symm
  · cases hf

/-- The matcher of features of both images. -/
theorem C125_stereo_matcher {t : StereoTracking} (h : single cv frames p = .ok s) (ht : s.stereo = some t) {w m : String}
    {x y : Int} {v r c : ℚ} (hw : Words p [("stereo_tracking/stereo_keypoint_matcher/matching_filter", m),
      ("stereo_tracking/stereo_keypoint_matcher/cost_function", w)])
    (hn : Wholes p [("stereo_tracking/stereo_keypoint_matcher/window_size/width", x),
      ("stereo_tracking/stereo_keypoint_matcher/window_size/height", y)])
    (hx : Numbers p [("stereo_tracking/stereo_keypoint_matcher/vertical_pixel_threshold", v),
      ("stereo_tracking/stereo_keypoint_matcher/ratio", r), ("stereo_tracking/stereo_keypoint_matcher/cost_threshold", c)])
    {cost : Cost} (hc : (w, cost) ∈ [("SAD", .sad), ("SSD", .ssd), ("ZMSAD", .zmsad), ("LSSAD", .lssad), ("NNCC", Cost.nncc)])
    {flt : Stereo.MatchingFilter} (hf : (m, flt) ∈ [("UNIDIRECTIONAL", .unidirectional), ("BIDIRECTIONAL", .bidirectional),
      ("RATIO_TEST", Stereo.MatchingFilter.ratioTest)]) :
    t.matcher = ⟨cost, x, y, v, flt, r⟩ ∧ t.costThreshold = c := by
  obtain ⟨-, -, hm, hs⟩ := stereo_parts h ht
  have hw := words hw
  have hn := wholes hn
  have hx := numbers hx
  simp only [List.forall_mem_cons] at hw hn hx
  have e1 : toCost w = .ok cost := by
    simp only [List.mem_cons, List.not_mem_nil, or_false, Prod.mk.injEq] at hc
    rcases hc with ⟨rfl, rfl⟩ | ⟨rfl, rfl⟩ | ⟨rfl, rfl⟩ | ⟨rfl, rfl⟩ | ⟨rfl, rfl⟩ <;> rfl
  have e2 : Stereo.toMatchingFilter m = .ok flt := by
    simp only [List.mem_cons, List.not_mem_nil, or_false, Prod.mk.injEq] at hf
    rcases hf with ⟨rfl, rfl⟩ | ⟨rfl, rfl⟩ | ⟨rfl, rfl⟩ <;> rfl
  constructor
  · simp only [matcherParams, hw, hn, hx, e1, e2, Outcome.bind_ok, checkMatcher] at hm
    split at hm
    · cases hm
    · split at hm
      · cases hm
      · injection hm with hm
        exact hm.symm
  · obtain ⟨_, -, hs⟩ := bind_eq_ok hs
    obtain ⟨_, -, hs⟩ := bind_eq_ok hs
    obtain ⟨_, -, hs⟩ := bind_eq_ok hs
    injection hs with hs
    rw [← hs]
    exact hx.2.2.1 _

/-- The mask of the images, the filters of matches, the distance between features, and the flags for debugging. -/
theorem C125_stereo_others {t : StereoTracking} (h : single cv frames p = .ok s) (ht : s.stereo = some t) {mask flt : Bool}
    {hh ww xx yy : Int} {v d near far : ℚ} {b₁ b₂ b₃ b₄ b₅ b₆ : Bool}
    (hf : Flags p [("stereo_mask/enabled", mask), ("stereo_tracking/stereo_distance_filter/enabled", flt),
      ("debug/stereo/publish_stats", b₁), ("debug/stereo/publish_intermediate_results", b₂), ("debug/stereo/publish_points", b₃),
      ("debug/stereo/print_stats", b₄), ("debug/stereo/rich_keypoints", b₅), ("debug/stereo/rich_matches", b₆)])
    (hn : Wholes p [("stereo_mask/height", hh), ("stereo_mask/width", ww), ("stereo_mask/top_left_x", xx),
      ("stereo_mask/top_left_y", yy)])
    (hx : Numbers p [("stereo_tracking/stereo_match_filter/vertical_pixel_threshold", v),
      ("stereo_tracking/new_feature_dist_threshold", d), ("stereo_tracking/stereo_distance_filter/max_distance", far),
      ("stereo_tracking/stereo_distance_filter/min_distance", near)]) :
    t.roi = (if mask then ⟨xx, yy, ww, hh⟩ else ⟨0, 0, 0, 0⟩) ∧ t.matchFilterThreshold = v ∧ t.newFeatureDistance = d ∧
      t.distanceFilter = (if flt then some (far, near) else none) ∧
      (t.publishStats, t.publishIntermediate, t.publishPoints, t.printStats, t.richKeypoints, t.richMatches) =
        (b₁, b₂, b₃, b₄, b₅, b₆) := by
  obtain ⟨-, -, -, hs⟩ := stereo_parts h ht
  have hf := flags hf
  have hn := wholes hn
  have hx := numbers hx
  simp only [List.forall_mem_cons] at hf hn hx
  obtain ⟨_, -, hs⟩ := bind_eq_ok hs
  obtain ⟨_, -, hs⟩ := bind_eq_ok hs
  obtain ⟨_, -, hs⟩ := bind_eq_ok hs
  injection hs with hs
  rw [← hs]
  simp only [roiParams, hf, hn, hx, and_self]

/-! ### The front end -/

theorem frontend_parts {frames : String → Bool} {e : FrontEnd} (h : frontend frames p = .ok e) :
    ∃ o, barometerOverwriteParams p = .ok o ∧ e = {
      mapFrame := p.str "map_frame_id" "map"
      deskewTranslation := p.bool "mdc/translation" true
      deskewRotation := p.bool "mdc/rotation" true
      onlyGraphFrames := p.bool "stereo_tracking/only_graph_frames" false
      stereo := p.bool "optimisation/factors/stereo" true
      preintegration := frontendPreintegration p
      imuOverwrite := imuOverwriteParams p
      barometer := p.bool "optimisation/factors/barometer" true
      barometerOverwrite := o
      northEastDown := decide (p.str "imu/reference_frame" "NED" = "NED")
      priorPosition := p.double "prior_noise/position" 0.001 ^ 2
      priorRotation := p.double "prior_noise/rotation" 0.001 ^ 2
      priorVelocity := p.double "prior_noise/linear_velocity" 0.001 ^ 2
      initialPosition := (p.double "pose/position/x" 0, p.double "pose/position/y" 0, p.double "pose/position/z" 0)
      initialVelocity := (p.double "velocity/linear/x" 0, p.double "velocity/linear/y" 0,
        p.double "velocity/linear/z" 0) } := by
  unfold frontend at h
  split at h
  · cases h
  · split at h
    · cases h
    · split at h
      · cases h
      · obtain ⟨o, ho, h⟩ := bind_eq_ok h
        injection h with h
        exact ⟨o, ho, h.symm⟩

/-- The flags and names of the front end. -/
theorem C125_frontend_flags (h : single cv frames p = .ok s) {t r g st ba : Bool} {w q : String}
    (hf : Flags p [("mdc/translation", t), ("mdc/rotation", r), ("stereo_tracking/only_graph_frames", g),
      ("optimisation/factors/stereo", st), ("optimisation/factors/barometer", ba)])
    (hw : Words p [("map_frame_id", w), ("imu/reference_frame", q)]) :
    s.frontend.deskewTranslation = t ∧ s.frontend.deskewRotation = r ∧ s.frontend.onlyGraphFrames = g ∧ s.frontend.stereo = st ∧
      s.frontend.barometer = ba ∧ s.frontend.mapFrame = w ∧ (q = "NED" → s.frontend.northEastDown = true) ∧
      (q = "NWU" → s.frontend.northEastDown = false) := by
  obtain ⟨hfe, -⟩ := single_eq_ok.mp h
  obtain ⟨o, -, e⟩ := frontend_parts hfe
  have hf := flags hf
  have hw := words hw
  simp only [List.forall_mem_cons] at hf hw
  rw [e]
  simp only [hf, hw, true_and]
  exact ⟨fun h => by simp [h], fun h => by simp [h]⟩

/-- Gravity and the noise of the IMU, in the front end and in the back end: variances are squares of the options. -/
theorem C125_imu (h : single cv frames p = .ok s) {o : Bool} {g i ib ab gb a w : ℚ} (ho : Flag p "imu/noise/overwrite" o)
    (hx : Numbers p [("gravity", g), ("imu/noise/integration", i), ("imu/noise/integration_bias", ib),
      ("imu/noise/accelerometer_bias", ab), ("imu/noise/gyroscope_bias", gb), ("imu/noise/accelerometer", a),
      ("imu/noise/gyroscope", w)]) :
    s.frontend.preintegration = ⟨g, i ^ 2, ib ^ 2, ab ^ 2, gb ^ 2⟩ ∧ s.backend.preintegration = ⟨g, i ^ 2, ib ^ 2, ab ^ 2, gb ^ 2⟩ ∧
      s.frontend.imuOverwrite = (if o then some (a ^ 2, w ^ 2) else none) := by
  obtain ⟨hfe, hbe, -⟩ := single_eq_ok.mp h
  obtain ⟨_, -, e⟩ := frontend_parts hfe
  have hx := numbers hx
  simp only [List.forall_mem_cons] at hx
  unfold backend at hbe
  split at hbe
  · cases hbe
  · obtain ⟨_, -, hbe⟩ := bind_eq_ok hbe
    obtain ⟨_, -, hbe⟩ := bind_eq_ok hbe
    obtain ⟨_, -, hbe⟩ := bind_eq_ok hbe
    obtain ⟨_, -, hbe⟩ := bind_eq_ok hbe
    injection hbe with hbe
    rw [e, ← hbe]
    simp only [frontendPreintegration, backendPreintegration, imuOverwriteParams, bool_flag ho, hx, and_self]

/-- The noise of the barometer. -/
theorem C125_barometer_overwrite (h : single cv frames p = .ok s) {o : Bool} {x : ℚ} (ho : Flag p "barometer/noise/overwrite" o)
    (hx : Number p "barometer/noise/barometer" x) : s.frontend.barometerOverwrite = if o then some (x ^ 2) else none := by
  obtain ⟨hfe, -⟩ := single_eq_ok.mp h
  obtain ⟨q, hq, e⟩ := frontend_parts hfe
  rw [e]
  simp only [barometerOverwriteParams, bool_flag ho, double_number hx] at hq
  cases o
  · simpa using hq.symm
  · simp only [if_true] at hq ⊢
    split at hq
    · cases hq
    · injection hq with hq
      exact hq.symm

/-- The initial state and its variances. -/
theorem C125_initial_state (h : single cv frames p = .ok s) {a b c x y z u v w : ℚ}
    (hx : Numbers p [("prior_noise/position", a), ("prior_noise/rotation", b), ("prior_noise/linear_velocity", c),
      ("pose/position/x", x), ("pose/position/y", y), ("pose/position/z", z), ("velocity/linear/x", u), ("velocity/linear/y", v),
      ("velocity/linear/z", w)]) :
    s.frontend.priorPosition = a ^ 2 ∧ s.frontend.priorRotation = b ^ 2 ∧ s.frontend.priorVelocity = c ^ 2 ∧
      s.frontend.initialPosition = (x, y, z) ∧ s.frontend.initialVelocity = (u, v, w) := by
  obtain ⟨hfe, -⟩ := single_eq_ok.mp h
  obtain ⟨_, -, e⟩ := frontend_parts hfe
  have hx := numbers hx
  simp only [List.forall_mem_cons] at hx
  rw [e]
  simp only [hx, and_self]

/-! ### The back end -/

theorem backend_parts {frames : String → Bool} {e : BackEnd} (h : backend frames p = .ok e) :
    isamParams p = .ok e.isam ∧ stereoFactorParams frames p = .ok e.stereo ∧ barometerBiasParams p = .ok e.barometerBias ∧
      marginalisationParams p = .ok e.marginalisation ∧ e.imu = p.bool "optimisation/factors/imu" true ∧
      e.registration = p.bool "optimisation/factors/registration" true ∧ e.mapFrame = p.str "map_frame_id" "map" ∧
      e.publishStereoPoints = p.bool "debug/optimisation/publish_stereo_points" false ∧
      e.priorBarometerBias = p.double "prior_noise/barometer_bias" 0.000001 ∧
      e.priorAccelerometerBias = p.double "prior_noise/accelerometer_bias" 0.001 ∧
      e.priorGyroscopeBias = p.double "prior_noise/gyroscope_bias" 0.001 ∧ e.onCrash = onCrashParams p := by
  unfold backend at h
  split at h
  · cases h
  · obtain ⟨a, ha, h⟩ := bind_eq_ok h
    obtain ⟨b, hb, h⟩ := bind_eq_ok h
    obtain ⟨c, hc, h⟩ := bind_eq_ok h
    obtain ⟨d, hd, h⟩ := bind_eq_ok h
    injection h with h
    rw [← h]
    exact ⟨ha, hb, hc, hd, rfl, rfl, rfl, rfl, rfl, rfl, rfl, rfl⟩

/-- Which factors there are, the frame, and the standard deviations of the prior factors. -/
theorem C125_backend_factors (h : single cv frames p = .ok s) {i r ba pub : Bool} {w : String} {pb pa pg bb : ℚ}
    (hf : Flags p [("optimisation/factors/imu", i), ("optimisation/factors/registration", r),
      ("optimisation/factors/barometer", ba), ("debug/optimisation/publish_stereo_points", pub)]) (hw : Word p "map_frame_id" w)
    (hx : Numbers p [("prior_noise/barometer_bias", pb), ("prior_noise/accelerometer_bias", pa),
      ("prior_noise/gyroscope_bias", pg), ("barometer/noise/barometer_bias", bb)]) :
    s.backend.imu = i ∧ s.backend.registration = r ∧ s.backend.barometerBias = (if ba then some bb else none) ∧
      s.backend.publishStereoPoints = pub ∧ s.backend.mapFrame = w ∧ s.backend.priorBarometerBias = pb ∧
      s.backend.priorAccelerometerBias = pa ∧ s.backend.priorGyroscopeBias = pg := by
  obtain ⟨-, hbe, -⟩ := single_eq_ok.mp h
  obtain ⟨-, -, h3, -, h5, h6, h7, h8, h9, h10, h11, -⟩ := backend_parts hbe
  have hf := flags hf
  have hx := numbers hx
  simp only [List.forall_mem_cons] at hf hx
  simp only [hf, hx, str_word hw] at h5 h6 h7 h8 h9 h10 h11
  refine ⟨h5, h6, ?_, h8, h7, h9, h10, h11⟩
  simp only [barometerBiasParams, hf, hx] at h3
  cases ba
  · simpa using h3.symm
  · simp only [if_true] at h3 ⊢
    split at h3
    · cases h3
    · injection h3 with h3
      exact h3.symm

/-- Marginalisation. -/
theorem C125_marginalisation (h : single cv frames p = .ok s) {e : Bool} {n : Nat} (hn : n < 2 ^ 32)
    (he : Flag p "optimisation/marginalisation/enabled" e) (hw : Whole p "optimisation/marginalisation/window_size" n) :
    s.backend.marginalisation = if e then some n else none := by
  obtain ⟨-, hbe, -⟩ := single_eq_ok.mp h
  obtain ⟨-, -, -, h4, -⟩ := backend_parts hbe
  have e1 : wrapUnsigned n = n := by unfold wrapUnsigned; omega
  simp only [marginalisationParams, bool_flag he, int_whole hw, e1] at h4
  cases e
  · simpa using h4.symm
  · simp only [if_true] at h4 ⊢
    split at h4
    · cases h4
    · injection h4 with h4
      exact h4.symm

/-- The optimiser. -/
theorem C125_isam (h : single cv frames p = .ok s) {w fct mode : String} {th gn di dw : ℚ} {skip : Int} {v a b c : Bool}
    (hw : Words p [("isam2/optimization", w), ("isam2/factorization", fct),
      ("isam2/dogleg_params/trust_region_adaptation_mode", mode)])
    (hx : Numbers p [("isam2/relinearize_threshold", th), ("isam2/gauss_newton_params/wildfire_threshold", gn),
      ("isam2/dogleg_params/initial_delta", di), ("isam2/dogleg_params/wildfire_threshold", dw)])
    (hn : Whole p "isam2/relinearize_skip" skip)
    (hf : Flags p [("isam2/dogleg_params/verbose", v), ("isam2/enable_relinearization", a), ("isam2/evaluate_nonlinear_error", b),
      ("isam2/cache_linearized_factors", c)]) :
    (w = "GaussNewton" → s.backend.isam = ⟨.gaussNewton gn, th, fct, skip, a, b, c⟩) ∧
      (w = "Dogleg" → s.backend.isam = ⟨.dogleg di dw mode v, th, fct, skip, a, b, c⟩) := by
  obtain ⟨-, hbe, -⟩ := single_eq_ok.mp h
  obtain ⟨h1, -⟩ := backend_parts hbe
  have hf := flags hf
  have hx := numbers hx
  have hw := words hw
  simp only [List.forall_mem_cons] at hf hx hw
  simp only [isamParams, isamMethodParams, hf, hx, hw, int_whole hn] at h1
  constructor <;> rintro rfl <;> simpa [Outcome.bind_ok] using h1.symm

/-- Stereo factors: standard deviations and the frame of the camera, and no robust estimator if disabled. -/
theorem C125_stereo_factors (h : single cv frames p = .ok s) {w : String} {l r y : ℚ} {e : Bool}
    (hs : Flags p [("optimisation/factors/stereo", true), ("stereo_factors/robust/enabled", e)])
    (hw : Word p "stereo_factors/left_cam_frame" w)
    (hx : Numbers p [("stereo_factors/noise/left_x", l), ("stereo_factors/noise/right_x", r), ("stereo_factors/noise/y", y)]) :
    ∃ n, s.backend.stereo = some ⟨w, l, r, y, n⟩ ∧ (n = .gaussian ↔ e = false) := by
  obtain ⟨-, hbe, -⟩ := single_eq_ok.mp h
  obtain ⟨-, h2, -⟩ := backend_parts hbe
  have hs := flags hs
  have hx := numbers hx
  simp only [List.forall_mem_cons] at hs hx
  simp only [stereoFactorParams, hs, hx, str_word hw, if_true] at h2
  split at h2
  · cases h2
  · obtain ⟨n, hn, h2⟩ := bind_eq_ok h2
    injection h2 with h2
    refine ⟨n, h2.symm, ?_⟩
    simp only [robustnessParams, hs] at hn
    cases e
    · simp only [Bool.false_eq_true, if_false, Outcome.ok.injEq] at hn
      simp [← hn]
    · simp only [if_true] at hn
      obtain ⟨q, -, hn⟩ := bind_eq_ok hn
      injection hn with hn
      simp [← hn]

/-- The estimators by name; each has one number and a scheme, except `null`. -/
def estimators : List (String × String × (ℚ → Reweight → Estimator)) := [
  ("cauchy", "k", .cauchy), ("dcs", "c", .dcs), ("fair", "c", .fair), ("geman_mcclure", "c", .gemanMcClure),
  ("huber", "k", .huber), ("l2_with_dead_zone", "k", .l2WithDeadZone), ("null", "", fun _ _ => .null), ("tukey", "c", .tukey),
  ("welsch", "c", .welsch)]

/-- Robust estimators. -/
theorem C125_robust_estimator (h : single cv frames p = .ok s) {w v : String} {make : ℚ → Reweight → Estimator} {x : ℚ} {scheme : String}
    {r : Reweight} (hs : Flags p [("optimisation/factors/stereo", true), ("stereo_factors/robust/enabled", true)])
    (hw : Words p [("stereo_factors/robust/type", w), ("stereo_factors/robust/" ++ w ++ "/reweight_scheme", scheme)])
    (hx : Number p ("stereo_factors/robust/" ++ w ++ "/" ++ v) x) (he : (w, v, make) ∈ estimators)
    (hr : (scheme, r) ∈ [("BLOCK", .block), ("SCALAR", Reweight.scalar)]) :
    s.backend.stereo.map StereoFactors.noise = some (.robust (some (make x r))) := by
  obtain ⟨-, hbe, -⟩ := single_eq_ok.mp h
  obtain ⟨-, h2, -⟩ := backend_parts hbe
  have hs := flags hs
  have hw := words hw
  simp only [List.forall_mem_cons] at hs hw
  have e : toReweight scheme = .ok r := by
    simp only [List.mem_cons, List.not_mem_nil, or_false, Prod.mk.injEq] at hr
    rcases hr with ⟨rfl, rfl⟩ | ⟨rfl, rfl⟩ <;> rfl
  have hest : estimatorParams p = .ok (some (make x r)) := by
    have hx' := double_number hx
    clear hx hr h hbe h2
    obtain ⟨hw1, hw2, -⟩ := hw
    simp only [estimators, List.mem_cons, List.not_mem_nil, or_false, Prod.mk.injEq] at he
    rcases he with ⟨rfl, rfl, rfl⟩ | ⟨rfl, rfl, rfl⟩ | ⟨rfl, rfl, rfl⟩ | ⟨rfl, rfl, rfl⟩ | ⟨rfl, rfl, rfl⟩ | ⟨rfl, rfl, rfl⟩ |
      ⟨rfl, rfl, rfl⟩ | ⟨rfl, rfl, rfl⟩ | ⟨rfl, rfl, rfl⟩ <;> simp only [String.reduceAppend] at hw2 hx' <;>
      simp [estimatorParams, hw1, hw2, hx', e, Outcome.bind_ok]
  simp only [stereoFactorParams, hs, if_true] at h2
  split at h2
  · cases h2
  · obtain ⟨n, hn, h2⟩ := bind_eq_ok h2
    injection h2 with h2
    simp only [robustnessParams, hs, if_true, hest, Outcome.bind_ok, Outcome.ok.injEq] at hn
    rw [← h2, ← hn]
    rfl

/-- What is done before the node ends with an exception of the optimiser. -/
theorem C125_on_crash (h : single cv frames p = .ok s) {a b v : Bool} {x : ℚ}
    (hf : Flags p [("debug/optimisation/on_crash/print", a), ("debug/optimisation/on_crash/save", b),
      ("debug/optimisation/on_crash/print_options/verbose", v)])
    (hx : Number p "debug/optimisation/on_crash/print_options/min_error" x) :
    s.backend.onCrash = ⟨a, b, if a && v then some x else none⟩ := by
  obtain ⟨-, hbe, -⟩ := single_eq_ok.mp h
  obtain ⟨-, -, -, -, -, -, -, -, -, -, -, h12⟩ := backend_parts hbe
  have hf := flags hf
  simp only [List.forall_mem_cons] at hf
  rw [h12]
  simp only [onCrashParams, hf, double_number hx]

end Params

end Serpent
