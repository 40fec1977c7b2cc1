import Verif.Props.ParametersEffect
import Verif.Props.ParametersStages

/-!
# Examples for C125: servers that meet the hypotheses

The configuration files, with single options changed; the theorems are applied to them.
-/

namespace Serpent

namespace Params

/-- The node starts, with the modules for pointclouds and for stereo images. -/
def runs (p : Server) : Bool :=
  match single ⟨4, 4⟩ shippedFrames p with
  | .ok s => s.lidar.isSome && s.stereo.isSome
  | _ => false

theorem runs_parts {p : Server} (h : runs p = true) : ∃ s f b t, single ⟨4, 4⟩ shippedFrames p = .ok s ∧ s.lidar = some (f, b) ∧
    s.stereo = some t := by
  unfold runs at h
  split at h
  · rename_i s hs
    simp only [Bool.and_eq_true] at h
    obtain ⟨l, hl⟩ := Option.isSome_iff_exists.mp h.1
    obtain ⟨t, ht⟩ := Option.isSome_iff_exists.mp h.2
    exact ⟨s, l.1, l.2, t, hs, hl, ht⟩
  · cases h

theorem numbers_of {p : Server} {l : List (String × ℚ)} (h : ∀ e ∈ l, p e.1 = some (.double e.2)) : Numbers p l :=
  fun e he => .inl (h e he)

instance {p : Server} {l : List (String × Bool)} : Decidable (Flags p l) :=
  inferInstanceAs (Decidable (∀ e ∈ l, p e.1 = some (.bool e.2)))

instance {p : Server} {l : List (String × String)} : Decidable (Words p l) :=
  inferInstanceAs (Decidable (∀ e ∈ l, p e.1 = some (.string e.2)))

instance {p : Server} {l : List (String × Int)} : Decidable (Wholes p l) :=
  inferInstanceAs (Decidable (∀ e ∈ l, p e.1 = some (.int e.2)))

instance {p : Server} {k : String} {b : Bool} : Decidable (Flag p k b) := inferInstanceAs (Decidable (p k = some (.bool b)))

instance {p : Server} {k w : String} : Decidable (Word p k w) := inferInstanceAs (Decidable (p k = some (.string w)))

instance {p : Server} {k : String} {n : Int} : Decidable (Whole p k n) := inferInstanceAs (Decidable (p k = some (.int n)))

/-! ### Pointclouds -/

/-- All filters switched on, with other values. -/
def allFilters : Server := fun k =>
  match ([("body_filter/enabled", Value.bool true), ("random_sample_filter/enabled", .bool true),
    ("statistical_outlier_removal/enabled", .bool true), ("statistical_outlier_removal_filter/mean_k", .int 20),
    ("statistical_outlier_removal_filter/stddev_mul_thresh", .double 2), ("body_filter/min/x", .double (-1)),
    ("body_filter/max/x", .double 1), ("threads", .int 8), ("range_filter/max", .double 100),
    ("voxel_grid_filter/minimum_points_number_per_voxel", .double 2)].find? fun e => e.1 = k) with
  | some e => some e.2
  | none => shippedServer k

example : ∃ s f b g, single ⟨4, 4⟩ shippedFrames allFilters = .ok s ∧ s.lidar = some (f, b) ∧ f.filter = some g ∧
    g.voxel = some ⟨0.1, 2⟩ ∧ g.body = some ⟨(-1, 0, 0), (1, 0, 0), (0, 0, 0), (0, 0, 0)⟩ ∧ g.range = some ⟨0.1, 100⟩ ∧
    g.outliers = some ⟨20, 2⟩ ∧ g.sample = some ⟨5000, 0⟩ ∧ s.threads = 8 := by
  obtain ⟨s, f, b, t, hs, hl, -⟩ := runs_parts (p := allFilters) (by decide +kernel)
  obtain ⟨g, hg, h1⟩ := C125_voxel_filter hs hl (by decide +kernel) (leaf := 0.1) (n := 2) (by norm_num)
    (numbers_of (by decide +kernel))
  obtain ⟨g2, hg2, h2⟩ := C125_body_filter hs hl (by decide +kernel) (x₁ := -1) (y₁ := 0) (z₁ := 0) (x₂ := 1) (y₂ := 0) (z₂ := 0)
    (x₃ := 0) (y₃ := 0) (z₃ := 0) (x₄ := 0) (y₄ := 0) (z₄ := 0) (numbers_of (by decide +kernel))
  obtain ⟨g3, hg3, h3⟩ := C125_range_filter hs hl (by decide +kernel) (x := 0.1) (y := 100) (numbers_of (by decide +kernel))
  obtain ⟨g4, hg4, h4⟩ := C125_outlier_filter_partial hs hl (by decide +kernel) (k := 20) (x := 2) (by decide +kernel)
    (.inl (by decide +kernel))
  obtain ⟨g5, hg5, h5⟩ := C125_random_sample hs hl (by decide +kernel) (n := 5000) (seed := 0) (by norm_num) (by norm_num)
    (by decide +kernel)
  rw [hg] at hg2 hg3 hg4 hg5
  cases hg2; cases hg3; cases hg4; cases hg5
  exact ⟨s, f, b, g, hs, hl, hg, h1, h2, h3, h4, h5, C125_threads hs (n := 8) (by decide +kernel)⟩

/-- Normals within a radius, another covariance, NDT between scans and VGICP to the map. -/
def otherRegistration : Server := fun k =>
  match ([("normal_estimation/method", Value.string "radius"), ("normal_estimation/radius", .double 0.5),
    ("registration_covariance/method", .string "LLS"), ("registration_covariance/model", .string "POINT_TO_POINT_NONLINEAR"),
    ("s2s/method", .string "ndt"), ("s2m/method", .string "fast_vgicp"), ("mapping/frame_extraction_method", .string "PAST"),
    ("mapping/voxel_grid_filter/minimum_points_number_per_voxel", .double 3)].find? fun e => e.1 = k) with
  | some e => some e.2
  | none => shippedServer k

example : ∃ s f b, single ⟨4, 4⟩ shippedFrames otherRegistration = .ok s ∧ s.lidar = some (f, b) ∧
    f.normals.neighbours = .within 0.5 ∧ b.mapping.method = .past ∧
    b.registration.s2s = .ndt ⟨30, 0, 0.05, 0.5, 0.001, 0.0001, 0.0001⟩ 1 0.1 0.55 ∧
    b.registration.s2m = some (.fastVgicp ⟨⟨30, 0, 0.05, 0.5, 0.001, 0.0001, 0.0001⟩, 0.002, 0.000000001, false, 4, 20, .plane⟩ 1
      .additive .direct1) ∧
    Lidar.covarianceCall (regConfig otherRegistration b.registration.unit) b.registration.members =
      .ok (.iid (.llsIid .pointToPointNonlinear) (0.05 ^ 2)) := by
  obtain ⟨s, f, b, t, hs, hl, -⟩ := runs_parts (p := otherRegistration) (by decide +kernel)
  refine ⟨s, f, b, hs, hl, ?_, ?_, ?_, ?_, ?_⟩
  · exact (C125_normals hs hl (w := "radius") (n := 1) (k := 30) (x := 0) (y := 0) (z := 0) (r := 0.5) (by norm_num)
      (by decide +kernel) (by decide +kernel) (numbers_of (by decide +kernel))).2.2.2 rfl
  · exact (C125_mapping hs hl (w := "map") (m := "PAST") (n := 20) (k := 3) (d := 0.1) (r := 0.05235987755982988) (leaf := 0.05)
      (l := true) (g := true) (by norm_num) (by decide +kernel) (by decide +kernel) (by decide +kernel)
      (numbers_of (by decide +kernel))).2.2.2.2.2.2.2.2 rfl
  · exact (C125_pcl_methods hs hl (pre := "s2s/") (w := "ndt") (.inl ⟨rfl, rfl⟩) (by decide +kernel) (r := false) (k := 20) (n := 20)
      (e := 0.002) (x := 1) (y := 0.1) (z := 0.55) (q := ⟨30, 0, 0.05, 0.5, 0.001, 0.0001, 0.0001⟩)
      ⟨by decide +kernel, numbers_of (by decide +kernel)⟩ (by decide +kernel) (by decide +kernel)
      (numbers_of (by decide +kernel))).2.2 rfl
  · have he := (C125_registration_flags hs hl (e := true) (c := false) (q := false) (a := false) (by decide +kernel)).1
    obtain ⟨m, hm⟩ := Option.isSome_iff_exists.mp he
    rw [hm]
    exact congrArg some ((C125_fast_gicp_methods hs hl (pre := "s2m/") (w := "fast_vgicp") (reg := "PLANE") (acc := "ADDITIVE")
      (nb := "DIRECT1") (.inr ⟨rfl, hm⟩) (by decide +kernel) (q := ⟨30, 0, 0.05, 0.5, 0.001, 0.0001, 0.0001⟩)
      ⟨by decide +kernel, numbers_of (by decide +kernel)⟩ (dbg := false) (t := 4) (k := 20) (e := 0.002) (l := 0.000000001) (x := 1)
      (by decide +kernel) (by decide +kernel) (numbers_of (by decide +kernel)) (by decide) (by decide) (by decide)).2.2 rfl)
  · exact (C125_registration_covariance hs hl (w := "LLS") (q := "CONSTANT") (m := "POINT_TO_POINT_NONLINEAR") (by decide +kernel)
      (by decide +kernel) (r := 0.0174533) (t := 0.01) (c := 0.05) (g := 0.05) (a := 0.02) (leaf := 0.1)
      (numbers_of (by decide +kernel)) (model := .pointToPointNonlinear) (by decide) rfl).2.2.2.2.2.1 rfl rfl

/-! ### Stereo -/

/-- The names that the optical flow is read with, and the initial velocity. -/
def otherFlow : Server := fun k =>
  match ([("stereo_tracking/sparse_optical_flow/win_size", Value.ints [15, 17]),
    ("stereo_tracking/sparse_optical_flow/term_criteria/type", .string "EPS"),
    ("stereo_tracking/sparse_optical_flow/max_level", .int 2),
    ("stereo_tracking/sparse_optical_flow/term_criteria/max_count", .int 10), ("stereo_tracking/sparse_optical_flow/flags", .int 0),
    ("stereo_tracking/sparse_optical_flow/term_criteria/epsilon", .double 0.1),
    ("stereo_tracking/sparse_optical_flow/min_eig_threshold", .double 0.001), ("stereo_mask/enabled", .bool true),
    ("stereo_mask/width", .int 640), ("stereo_mask/height", .int 480), ("velocity/linear/x", .double 1),
    ("velocity/linear/y", .double 0), ("velocity/linear/z", .double 0)].find? fun e => e.1 = k) with
  | some e => some e.2
  | none => shippedServer k

example : ∃ s t, single ⟨4, 4⟩ shippedFrames otherFlow = .ok s ∧ s.stereo = some t ∧
    t.flow = ⟨(15, 17), 2, .eps, 10, 0.1, 0, 0.001⟩ ∧ t.detector = .gftt ⟨1000, 0.01, 1, 3, false, 0.04⟩ ∧
    t.matcher = ⟨.ssd, 7, 7, 1, .ratioTest, 0.1⟩ ∧ t.roi = ⟨0, 0, 640, 480⟩ ∧ s.frontend.initialVelocity = (1, 0, 0) := by
  obtain ⟨s, f, b, t, hs, -, ht⟩ := runs_parts (p := otherFlow) (by decide +kernel)
  refine ⟨s, t, hs, ht, ?_, ?_, ?_, ?_, ?_⟩
  · exact C125_optical_flow_partial hs ht (w := "EPS") (x := 15) (y := 17) (rest := []) (l := 2) (n := 10) (g := 0) (e := 0.1)
      (m := 0.001) (by decide +kernel) (by decide +kernel) (by decide) (by decide +kernel) (numbers_of (by decide +kernel))
  · exact C125_gftt hs ht (g := ⟨1000, 0.01, 1, 3, false, 0.04⟩) (by decide +kernel) (by decide +kernel)
      (numbers_of (by decide +kernel)) (by decide +kernel)
  · exact (C125_stereo_matcher hs ht (w := "SSD") (m := "RATIO_TEST") (x := 7) (y := 7) (v := 1) (r := 0.1) (c := 1000000000)
      (by decide +kernel) (by decide +kernel) (numbers_of (by decide +kernel)) (by decide) (by decide)).1
  · exact (C125_stereo_others hs ht (mask := true) (flt := false) (hh := 480) (ww := 640) (xx := 0) (yy := 0) (v := 1) (d := 5)
      (near := 0) (far := 1000000000) (b₁ := false) (b₂ := false) (b₃ := false) (b₄ := false) (b₅ := false) (b₆ := false)
      (by decide +kernel) (by decide +kernel) (numbers_of (by decide +kernel))).1
  · exact (C125_initial_state hs (a := 0.001) (b := 0.001) (c := 0.001) (x := 0) (y := 0) (z := 0) (u := 1) (v := 0) (w := 0)
      (numbers_of (by decide +kernel))).2.2.2.2

/-- The configuration files with another detector. -/
def withDetector (w : String) : Server := fun k =>
  match ([("stereo_tracking/detector/type", Value.string w), ("stereo_tracking/detector/sift/constrast_threshold", .double 0.1)].find?
    fun e => e.1 = k) with
  | some e => some e.2
  | none => shippedServer k

example : ∃ s t, single ⟨4, 4⟩ shippedFrames (withDetector "FAST") = .ok s ∧ s.stereo = some t ∧ t.detector = .fast 10 true .t9_16 := by
  obtain ⟨s, f, b, t, hs, -, ht⟩ := runs_parts (p := withDetector "FAST") (by decide +kernel)
  exact ⟨s, t, hs, ht, C125_fast hs ht (w := "TYPE_9_16") (by decide +kernel) (by decide +kernel) (by decide +kernel) (by decide)⟩

example : ∃ s t, single ⟨4, 4⟩ shippedFrames (withDetector "ORB") = .ok s ∧ s.stereo = some t ∧
    t.detector = .orb ⟨500, 1.2, 8, 31, 0, 2, .harris, 31, 20⟩ := by
  obtain ⟨s, f, b, t, hs, -, ht⟩ := runs_parts (p := withDetector "ORB") (by decide +kernel)
  exact ⟨s, t, hs, ht, C125_orb hs ht (o := ⟨500, 1.2, 8, 31, 0, 2, .harris, 31, 20⟩) (w := "HARRIS_SCORE") (by decide +kernel)
    (by decide) (by decide +kernel) (.inl (by decide +kernel))⟩

example : ∃ s t, single ⟨4, 4⟩ shippedFrames (withDetector "SIFT") = .ok s ∧ s.stereo = some t ∧
    t.detector = .sift ⟨10, 3, 0.1, 10, 1.6⟩ := by
  obtain ⟨s, f, b, t, hs, -, ht⟩ := runs_parts (p := withDetector "SIFT") (by decide +kernel)
  exact ⟨s, t, hs, ht, C125_sift_partial hs ht (k := ⟨10, 3, 0.1, 10, 1.6⟩) (by decide +kernel) (by decide +kernel)
    (numbers_of (by decide +kernel))⟩

example : Flag (withDetector "SIFT") "optimisation/factors/stereo" true ∧
    Word (withDetector "SIFT") "stereo_tracking/detector/type" "SIFT" := by
  constructor <;> decide +kernel

/-! ### The front end and the back end -/

/-- The measured noise is overwritten, the window is bounded, another optimiser and estimator. -/
def otherBackEnd : Server := fun k =>
  match ([("imu/noise/overwrite", Value.bool true), ("imu/reference_frame", .string "NWU"), ("isam2/optimization", .string "Dogleg"),
    ("optimisation/marginalisation/enabled", .bool true), ("optimisation/marginalisation/window_size", .int 50),
    ("stereo_factors/robust/type", .string "cauchy"), ("stereo_factors/robust/cauchy/reweight_scheme", .string "SCALAR"),
    ("debug/optimisation/on_crash/print_options/verbose", .bool true)].find? fun e => e.1 = k) with
  | some e => some e.2
  | none => shippedServer k

example : ∃ s, single ⟨4, 4⟩ shippedFrames otherBackEnd = .ok s ∧ s.frontend.northEastDown = false ∧
    s.frontend.imuOverwrite = some (0.001 ^ 2, 0.001 ^ 2) ∧ s.frontend.barometerOverwrite = some (0.01 ^ 2) ∧
    s.backend.barometerBias = some 0.000001 ∧ s.backend.marginalisation = some 50 ∧
    s.backend.isam = ⟨.dogleg 1 0.00001 "SEARCH_EACH_ITERATION" false, 0.1, "CHOLESKY", 10, true, false, true⟩ ∧
    (∃ n, s.backend.stereo = some ⟨"stereo", 5, 5, 10, n⟩) ∧
    s.backend.stereo.map StereoFactors.noise = some (.robust (some (.cauchy 0.1 .scalar))) ∧
    s.backend.onCrash = ⟨true, false, some 0⟩ := by
  obtain ⟨s, f, b, t, hs, -, -⟩ := runs_parts (p := otherBackEnd) (by decide +kernel)
  refine ⟨s, hs, ?_, ?_, ?_, ?_, ?_, ?_, ?_, ?_, ?_⟩
  · exact (C125_frontend_flags hs (t := true) (r := true) (g := true) (st := true) (ba := true) (w := "map") (q := "NWU")
      (by decide +kernel) (by decide +kernel)).2.2.2.2.2.2.2 rfl
  · exact (C125_imu hs (o := true) (g := 9.81) (i := 0.001) (ib := 0.001) (ab := 0.001) (gb := 0.001) (a := 0.001) (w := 0.001)
      (by decide +kernel) (numbers_of (by decide +kernel))).2.2
  · exact C125_barometer_overwrite hs (o := true) (x := 0.01) (by decide +kernel) (.inl (by decide +kernel))
  · exact (C125_backend_factors hs (i := true) (r := true) (ba := true) (pub := false) (w := "map") (pb := 0.000001) (pa := 0.001)
      (pg := 0.001) (bb := 0.000001) (by decide +kernel) (by decide +kernel) (numbers_of (by decide +kernel))).2.2.1
  · exact C125_marginalisation hs (e := true) (n := 50) (by norm_num) (by decide +kernel) (by decide +kernel)
  · exact (C125_isam hs (w := "Dogleg") (fct := "CHOLESKY") (mode := "SEARCH_EACH_ITERATION") (th := 0.1) (gn := 0.001) (di := 1)
      (dw := 0.00001) (skip := 10) (v := false) (a := true) (b := false) (c := true) (by decide +kernel)
      (numbers_of (by decide +kernel)) (by decide +kernel) (by decide +kernel)).2 rfl
  · obtain ⟨n, hn, -⟩ := C125_stereo_factors hs (w := "stereo") (l := 5) (r := 5) (y := 10) (e := true) (by decide +kernel)
      (by decide +kernel) (numbers_of (by decide +kernel))
    exact ⟨n, hn⟩
  · exact C125_robust_estimator hs (w := "cauchy") (v := "k") (make := .cauchy) (x := 0.1) (scheme := "SCALAR") (r := .scalar)
      (by decide +kernel) (by decide +kernel) (.inl (by decide +kernel)) (by simp [estimators]) (by decide)
  · exact C125_on_crash hs (a := true) (b := false) (v := true) (x := 0) (by decide +kernel) (.inl (by decide +kernel))

end Params

end Serpent
