import Verif.Lemmas.Parameters
import Verif.Spec.ParametersValid
import Mathlib.Tactic.Tauto
import Mathlib.Tactic.Positivity
import Mathlib.Tactic.NormNum

/-!
# Lemmas: which components start with which options
-/

namespace Serpent

namespace Params

/-- The computation succeeds. -/
def Starts {α : Type} (x : Outcome α) : Prop := ∃ a, x = .ok a

section Basics

variable {α β : Type}

@[simp] theorem starts_ok (a : α) : Starts (Outcome.ok a) ↔ True := ⟨fun _ => trivial, fun _ => ⟨a, rfl⟩⟩

@[simp] theorem starts_throws : Starts (Outcome.throws : Outcome α) ↔ False := by
  constructor
  · rintro ⟨_, h⟩; cases h
  · exact False.elim

@[simp] theorem starts_ub : Starts (Outcome.ub : Outcome α) ↔ False := by
  constructor
  · rintro ⟨_, h⟩; cases h
  · exact False.elim

theorem starts_bind {x : Outcome α} {f : α → Outcome β} {P : Prop} (h : ∀ a, x = .ok a → (Starts (f a) ↔ P)) :
    Starts (x >>= f) ↔ Starts x ∧ P := by
  cases x with
  | ok a =>
    rw [Outcome.bind_ok, h a rfl]
    simp
  | throws => simp [Outcome.bind_throws]
  | ub => simp [Outcome.bind_ub]

theorem starts_map {x : Outcome α} {f : α → β} : Starts (x >>= fun a => .ok (f a)) ↔ Starts x := by
  rw [starts_bind (P := True) (by simp)]; simp

theorem starts_ite_throws {c : Prop} [Decidable c] {x : Outcome α} : Starts (if c then .throws else x) ↔ ¬c ∧ Starts x := by
  split <;> simp [*]

theorem starts_ite_ok {c : Prop} [Decidable c] {x : Outcome α} {a : α} : Starts (if c then x else .ok a) ↔ (c → Starts x) := by
  split <;> simp [*]

theorem starts_toUnsigned (x : ℚ) : Starts (toUnsigned x) ↔ CountValid x := by
  have h1 : (0 ≤ truncate x ∧ truncate x < 2 ^ 32) ↔ CountValid x := by
    unfold truncate CountValid
    split
    · rename_i h
      constructor
      · rintro ⟨-, h2⟩
        exact ⟨by linarith, by
          have := Rat.floor_lt_iff.mp h2
          exact_mod_cast this⟩
      · rintro ⟨-, h2⟩
        refine ⟨Rat.le_floor_iff.mpr (by exact_mod_cast h), Rat.floor_lt_iff.mpr (by exact_mod_cast h2)⟩
    · rename_i h
      push Not at h
      constructor
      · rintro ⟨h1, -⟩
        refine ⟨?_, by linarith⟩
        have : (-1 : Int) < x.ceil := by omega
        have := Rat.lt_ceil_iff.mp this
        exact_mod_cast this
      · rintro ⟨h1, -⟩
        refine ⟨?_, ?_⟩
        · have : (-1 : Int) < x.ceil := Rat.lt_ceil_iff.mpr (by exact_mod_cast h1)
          omega
        · have : x.ceil ≤ 0 := Rat.ceil_le_iff.mpr (by exact_mod_cast h.le)
          omega
  unfold toUnsigned
  split
  · rename_i h; simp [h1.mp h]
  · rename_i h; simp only [starts_ub, false_iff]; exact fun e => h (h1.mpr e)

end Basics

/-! ### Words -/

theorem starts_toSensorType (w : String) : Starts (Lidar.toSensorType w) ↔ w ∈ ["OUSTER", "CUSTOM"] := by
  unfold Lidar.toSensorType; repeat' split <;> simp [*]

theorem starts_mapMethod (w : String) : Starts (Mapping.toMethod w) ↔ w ∈ ["NEARBY", "PAST"] := by
  unfold Mapping.toMethod; repeat' split <;> simp [*]

theorem starts_toRegularization (w : String) :
    Starts (toRegularization w) ↔ w ∈ ["NONE", "MIN_EIG", "NORMALIZED_MIN_EIG", "PLANE", "FROBENIUS"] := by
  unfold toRegularization; repeat' split <;> simp [*]

theorem starts_toAccumulation (w : String) : Starts (toAccumulation w) ↔ w ∈ ["ADDITIVE", "ADDITIVE_WEIGHTED", "MULTIPLICATIVE"] := by
  unfold toAccumulation; repeat' split <;> simp [*]

theorem starts_toNeighborSearch (w : String) :
    Starts (toNeighborSearch w) ↔ w ∈ ["DIRECT27", "DIRECT7", "DIRECT1", "DIRECT_RADIUS"] := by
  unfold toNeighborSearch; repeat' split <;> simp [*]

theorem starts_toFastType (w : String) : Starts (toFastType w) ↔ w ∈ ["TYPE_5_8", "TYPE_7_12", "TYPE_9_16"] := by
  unfold toFastType; repeat' split <;> simp [*]

theorem starts_toScoreType (w : String) : Starts (toScoreType w) ↔ w ∈ ["HARRIS_SCORE", "FAST_SCORE"] := by
  unfold toScoreType; repeat' split <;> simp [*]

theorem starts_toCriteria (w : String) :
    Starts (toCriteria w) ↔ w ∈ ["COUNT", "MAX_ITER", "EPS", "COUNT+EPS", "MAX_ITER+EPS"] := by
  unfold toCriteria
  split
  · rename_i h; rcases h with rfl | rfl <;> simp
  · rename_i h; push Not at h
    split
    · rename_i h; subst h; simp
    · rename_i h2
      split
      · rename_i h; rcases h with rfl | rfl <;> simp
      · rename_i h3; push Not at h3; simp [h, h2, h3]

theorem starts_toCost (w : String) : Starts (toCost w) ↔ w ∈ ["SAD", "SSD", "ZMSAD", "LSSAD", "NNCC"] := by
  unfold toCost; repeat' split <;> simp [*]

theorem starts_toMatchingFilter (w : String) :
    Starts (Stereo.toMatchingFilter w) ↔ w ∈ ["UNIDIRECTIONAL", "BIDIRECTIONAL", "RATIO_TEST"] := by
  unfold Stereo.toMatchingFilter; repeat' split <;> simp [*]

theorem starts_toReweight (w : String) : Starts (toReweight w) ↔ w ∈ ["BLOCK", "SCALAR"] := by
  unfold toReweight; repeat' split <;> simp [*]

theorem starts_toSize (l : List Int) : Starts (toSize l) ↔ 2 ≤ l.length := by
  unfold toSize
  split
  · simp
  · rename_i h
    cases l with
    | nil => simp
    | cons a l => cases l with
      | nil => simp
      | cons b l => exact absurd rfl (h a b l)

variable {p : Server} {frames : String → Bool} {cv : OpenCv}

/-! ### Components -/

theorem starts_filter : Starts (filter p) ↔ FilterValid p := by
  unfold filter
  rw [starts_bind (P := Starts (sampleParams p)) fun _ _ => starts_map]
  have h1 : Starts (voxelParams p) ↔ (p.bool "voxel_grid_filter/enabled" true = true →
      CountValid (p.double "voxel_grid_filter/minimum_points_number_per_voxel" 1)) := by
    unfold voxelParams
    rw [starts_ite_ok, starts_map, starts_toUnsigned]
  have h2 : Starts (sampleParams p) ↔ (p.bool "random_sample_filter/enabled" false = true →
      0 ≤ p.int "random_sample_filter/sample_size" 3000 ∧ 0 ≤ p.int "random_sample_filter/random_seed" 0) := by
    unfold sampleParams
    rw [starts_ite_ok, starts_ite_throws, starts_ite_throws]
    simp
  rw [h1, h2]
  exact ⟨fun h => ⟨h.1, h.2⟩, fun h => ⟨h.1, h.2⟩⟩

theorem starts_normals : Starts (normals p) ↔ p.str "normal_estimation/method" "knn" ∈ ["knn", "radius"] := by
  unfold normals
  rw [starts_map]
  unfold neighbourParams
  repeat' split <;> simp [*]

theorem starts_mapping : Starts (mapping p) ↔ MappingValid p := by
  unfold mapping
  rw [starts_ite_throws, starts_bind fun _ _ => starts_map, starts_mapMethod, starts_toUnsigned]
  exact ⟨fun h => ⟨by omega, h.2.1, h.2.2⟩, fun h => ⟨by have := h.number; omega, h.method, h.voxel⟩⟩

theorem starts_fastGicp {pre : String} : Starts (fastGicpParams p pre) ↔
    p.str (pre ++ "fast_gicp/regularization_method") "PLANE" ∈ ["NONE", "MIN_EIG", "NORMALIZED_MIN_EIG", "PLANE", "FROBENIUS"] := by
  unfold fastGicpParams
  rw [starts_map, starts_toRegularization]

theorem starts_fastVgicp {pre : String} : Starts (fastVgicpParams p pre) ↔
    p.str (pre ++ "fast_gicp/regularization_method") "PLANE" ∈ ["NONE", "MIN_EIG", "NORMALIZED_MIN_EIG", "PLANE", "FROBENIUS"] ∧
    p.str (pre ++ "fast_vgicp/voxel_accumulation_mode") "ADDITIVE" ∈ ["ADDITIVE", "ADDITIVE_WEIGHTED", "MULTIPLICATIVE"] ∧
    p.str (pre ++ "fast_vgicp/neighbor_search_method") "DIRECT1" ∈ ["DIRECT27", "DIRECT7", "DIRECT1", "DIRECT_RADIUS"] := by
  unfold fastVgicpParams
  rw [starts_bind fun _ _ => starts_bind fun _ _ => starts_map, starts_fastGicp, starts_toAccumulation, starts_toNeighborSearch]

theorem starts_method {pre : String} : Starts (methodParams p pre) ↔ MethodValid p pre := by
  unfold methodParams Lidar.toRegMethod
  have k : MethodValid p pre ↔ _ := ⟨fun h => And.intro h.method (And.intro h.regularization (And.intro h.accumulation h.search)),
    fun h => ⟨h.1, h.2.1, h.2.2.1, h.2.2.2⟩⟩
  rw [k]
  repeat' split
  all_goals first
    | (simp only [Outcome.bind_throws, starts_throws]; simp [*]; done)
    | (simp only [Outcome.bind_ok]; simp [*]; done)
    | (simp only [Outcome.bind_ok]; rw [starts_map, starts_fastGicp]; simp [*])
    | (simp only [Outcome.bind_ok]; rw [starts_fastVgicp]; simp [*])

theorem starts_toRegMethod (w : String) :
    Starts (Lidar.toRegMethod w) ↔ w ∈ ["icp", "gicp", "fast_gicp", "fast_gicp_st", "fast_vgicp", "ndt"] := by
  unfold Lidar.toRegMethod; repeat' split <;> simp [*]

theorem starts_toCovModel (w : String) : Starts (Lidar.toCovModel w) ↔ w ∈ ["POINT_TO_POINT_LINEARISED",
    "POINT_TO_POINT_NONLINEAR", "POINT_TO_PLANE_LINEARISED", "POINT_TO_PLANE_NONLINEAR"] := by
  unfold Lidar.toCovModel; repeat' split <;> simp [*]

theorem starts_unitVectors : Starts (unitVectors p) ↔ p.str "registration_covariance/method" "CENSI" ∈ ["CONSTANT", "CENSI", "LLS"] ∧
    p.str "registration_covariance/point_covariance/method" "RANGE" ∈ ["CONSTANT", "VOXEL_SIZE", "RANGE", "RANGE_BIAS"] := by
  unfold unitVectors Lidar.requiresUnitVectorsNamed
  rw [starts_bind fun _ _ => starts_map]
  refine and_congr ?_ ?_
  · unfold Lidar.toCovMethod; repeat' split <;> simp [*]
  · unfold Lidar.toPointMethod; repeat' split <;> simp [*]

theorem starts_setRange {c : Lidar.RegConfig} {cov : Lidar.CovMethod} {m : Lidar.RegMembers} :
    Starts (Lidar.setRange c cov m) ↔ cov ≠ .lls ∧ 0 < c.rangeNoise := by
  unfold Lidar.setRange
  rw [starts_ite_throws, starts_ite_throws]
  simp

/-- The conditions on the covariance, for a method other than `CONSTANT`. -/
def EstimateValid (c : Lidar.RegConfig) (cov : Lidar.CovMethod) : Prop :=
  c.covModel ∈ ["POINT_TO_POINT_LINEARISED", "POINT_TO_POINT_NONLINEAR", "POINT_TO_PLANE_LINEARISED",
    "POINT_TO_PLANE_NONLINEAR"] ∧ c.pointMethod ∈ ["CONSTANT", "VOXEL_SIZE", "RANGE", "RANGE_BIAS"] ∧
  (c.pointMethod = "VOXEL_SIZE" → c.voxelFilter = true) ∧
  (c.pointMethod ∈ ["RANGE", "RANGE_BIAS"] → cov ≠ .lls ∧ 0 < c.rangeNoise) ∧
  (c.pointMethod = "RANGE_BIAS" → 0 < c.rangeBiasNoise)

theorem starts_setPoint {c : Lidar.RegConfig} {cov : Lidar.CovMethod} {m : Lidar.RegMembers} {g : Lidar.PointMethod}
    (hg : Lidar.toPointMethod c.pointMethod = .ok g) : Starts (Lidar.setPointVariance c cov g m) ↔
      (c.pointMethod = "VOXEL_SIZE" → c.voxelFilter = true) ∧
      (c.pointMethod ∈ ["RANGE", "RANGE_BIAS"] → cov ≠ .lls ∧ 0 < c.rangeNoise) ∧
      (c.pointMethod = "RANGE_BIAS" → 0 < c.rangeBiasNoise) := by
  unfold Lidar.toPointMethod at hg
  split at hg
  · rename_i h; injection hg with hg; subst hg; simp [Lidar.setPointVariance, h]
  · split at hg
    · rename_i h; injection hg with hg; subst hg
      simp only [Lidar.setPointVariance, starts_ite_throws]
      simp [h]
    · split at hg
      · rename_i h; injection hg with hg; subst hg
        simp only [Lidar.setPointVariance, starts_setRange]
        simp [h]
      · split at hg
        · rename_i h; injection hg with hg; subst hg
          simp only [Lidar.setPointVariance, starts_ite_throws, starts_setRange]
          simp only [h]
          simp
          tauto
        · cases hg

theorem starts_estimate {c : Lidar.RegConfig} {cov : Lidar.CovMethod} (hcov : cov ≠ .constant) {m : Lidar.RegMembers} :
    Starts (Lidar.configureEstimate c cov m) ↔ EstimateValid c cov := by
  unfold Lidar.configureEstimate EstimateValid
  rw [starts_bind (P := c.pointMethod ∈ ["CONSTANT", "VOXEL_SIZE", "RANGE", "RANGE_BIAS"] ∧
    (c.pointMethod = "VOXEL_SIZE" → c.voxelFilter = true) ∧
    (c.pointMethod ∈ ["RANGE", "RANGE_BIAS"] → cov ≠ .lls ∧ 0 < c.rangeNoise) ∧
    (c.pointMethod = "RANGE_BIAS" → 0 < c.rangeBiasNoise)), starts_toCovModel]
  intro model _
  have hp : Starts (Lidar.toPointMethod c.pointMethod) ↔ c.pointMethod ∈ ["CONSTANT", "VOXEL_SIZE", "RANGE", "RANGE_BIAS"] := by
    unfold Lidar.toPointMethod; repeat' split <;> simp [*]
  cases cov with
  | constant => exact absurd rfl hcov
  | censi =>
    simp only [Lidar.createBindings, Outcome.bind_ok]
    rw [starts_bind fun g hg => starts_setPoint hg, hp]
  | lls =>
    simp only [Lidar.createBindings, Outcome.bind_ok]
    rw [starts_bind fun g hg => starts_setPoint hg, hp]

theorem starts_construct {c : Lidar.RegConfig} : Starts (Lidar.construct c) ↔ Starts (Lidar.toRegMethod c.s2sMethod) ∧
    (c.s2m = true → Starts (Lidar.toRegMethod c.s2mMethod)) ∧
    (c.covMethod = "CONSTANT" ∨ (c.covMethod = "CENSI" ∧ EstimateValid c .censi) ∨ (c.covMethod = "LLS" ∧ EstimateValid c .lls)) := by
  unfold Lidar.construct
  refine starts_bind fun s2s _ => ?_
  have h2 : Starts (Lidar.configureS2m c) ↔ (c.s2m = true → Starts (Lidar.toRegMethod c.s2mMethod)) := by
    unfold Lidar.configureS2m
    rw [starts_ite_ok, starts_map]
  rw [starts_bind fun s2m _ => ?_, h2]
  unfold Lidar.toCovMethod
  split
  · rename_i h; simp [Outcome.bind_ok, h]
  · rename_i h0
    split
    · rename_i h
      simp only [Outcome.bind_ok]
      rw [if_neg (by decide), starts_estimate (by decide)]
      simp [h]
    · rename_i h1
      split
      · rename_i h
        simp only [Outcome.bind_ok]
        rw [if_neg (by decide), starts_estimate (by decide)]
        simp [h]
      · rename_i h3
        simp [Outcome.bind_throws, *]

theorem starts_registration {u : Bool} (hu : Starts (unitVectors p)) : Starts (registration frames p u) ↔
    MethodValid p "s2s/" ∧ (p.bool "s2m/enabled" true = true → MethodValid p "s2m/") ∧ CovarianceValid p ∧
      frames "lidar" = true := by
  have hu' := starts_unitVectors.mp hu
  have hm : Starts (s2mParams p) ↔ (p.bool "s2m/enabled" true = true → MethodValid p "s2m/") := by
    unfold s2mParams
    rw [starts_ite_ok, starts_map, starts_method]
  have hlast : ∀ r : Reg, Starts (if frames "lidar" = false then .throws else .ok r) ↔ frames "lidar" = true := by
    intro r
    rw [starts_ite_throws]
    simp
  unfold registration
  rw [starts_bind fun _ _ => starts_bind fun _ _ => starts_bind fun _ _ => hlast _, starts_method, hm, starts_construct]
  have hc : (regConfig p u).s2sMethod = p.str ("s2s/" ++ "method") "fast_gicp" := rfl
  have hc2 : (regConfig p u).s2mMethod = p.str ("s2m/" ++ "method") "fast_gicp" := rfl
  rw [hc, hc2, starts_toRegMethod, starts_toRegMethod]
  constructor
  · rintro ⟨h1, h2, ⟨-, -, h3⟩, h4⟩
    refine ⟨h1, h2, ?_, h4⟩
    simp only [regConfig, EstimateValid] at h3
    rcases h3 with h3 | ⟨h3, h5⟩ | ⟨h3, h5⟩
    · exact ⟨hu'.1, hu'.2, fun h => absurd h3 h, fun h => absurd h3 h, fun h => absurd h3 h, fun h => absurd h3 h⟩
    · exact ⟨hu'.1, hu'.2, fun _ => h5.1, fun _ => h5.2.2.1, fun _ h => ⟨by rw [h3]; decide, (h5.2.2.2.1 h).2⟩,
        fun _ => h5.2.2.2.2⟩
    · exact ⟨hu'.1, hu'.2, fun _ => h5.1, fun _ => h5.2.2.1, fun _ h => absurd rfl (h5.2.2.2.1 h).1, fun _ => h5.2.2.2.2⟩
  · rintro ⟨h1, h2, h3, h4⟩
    refine ⟨h1, h2, ⟨h1.method, fun h => (h2 h).method, ?_⟩, h4⟩
    simp only [regConfig, EstimateValid]
    have hme := h3.method
    simp only [List.mem_cons, List.not_mem_nil, or_false] at hme
    rcases hme with h | h | h
    · exact Or.inl h
    · have hn : p.str "registration_covariance/method" "CENSI" ≠ "CONSTANT" := by rw [h]; decide
      exact Or.inr (Or.inl ⟨h, h3.model hn, h3.point, h3.voxel hn, fun g => ⟨by decide, (h3.range hn g).2⟩, h3.bias hn⟩)
    · have hn : p.str "registration_covariance/method" "CENSI" ≠ "CONSTANT" := by rw [h]; decide
      exact Or.inr (Or.inr ⟨h, h3.model hn, h3.point, h3.voxel hn, fun g => absurd h (h3.range hn g).1, h3.bias hn⟩)

theorem starts_filterIfEnabled : Starts (filterIfEnabled p) ↔ FilterValid p := by
  unfold filterIfEnabled
  rw [starts_ite_ok, starts_map, starts_filter]
  constructor
  · intro h
    constructor
    · intro he; exact (h (by simp [he])).voxel he
    · intro he; exact (h (by simp [he])).sample he
  · exact fun h _ => h

theorem starts_lidar : Starts (singleLidar frames p) ↔ (p.bool "optimisation/factors/registration" true = true → LidarValid frames p) := by
  unfold singleLidar
  rw [starts_ite_ok]
  refine imp_congr_right fun _ => ?_
  rw [starts_bind (P := FilterValid p ∧ p.str "normal_estimation/method" "knn" ∈ ["knn", "radius"] ∧ MappingValid p ∧
    MethodValid p "s2s/" ∧ (p.bool "s2m/enabled" true = true → MethodValid p "s2m/") ∧ CovarianceValid p ∧
    frames "lidar" = true)]
  · rw [starts_unitVectors]
    constructor
    · rintro ⟨-, h1, h2, h3, h4, h5, h6, h7⟩
      exact ⟨h1, h2, h3, h4, h5, h6, h7⟩
    · rintro ⟨h1, h2, h3, h4, h5, h6, h7⟩
      exact ⟨⟨h6.method, h6.point⟩, h1, h2, h3, h4, h5, h6, h7⟩
  · intro u hu
    rw [starts_bind fun _ _ => starts_bind fun _ _ => starts_bind fun _ _ => starts_map, starts_filterIfEnabled, starts_normals,
      starts_mapping, starts_registration ⟨u, hu⟩]

theorem starts_detector : Starts (detectorParams cv p) ↔
    p.str "stereo_tracking/detector/type" "ORB" ∈ ["FAST", "GFTT", "ORB", "SIFT"] ∧
    (p.str "stereo_tracking/detector/type" "ORB" = "FAST" →
      p.str "stereo_tracking/detector/fast/type" "TYPE_9_16" ∈ ["TYPE_5_8", "TYPE_7_12", "TYPE_9_16"]) ∧
    (p.str "stereo_tracking/detector/type" "ORB" = "ORB" →
      p.str "stereo_tracking/detector/orb/score_type" "HARRIS_SCORE" ∈ ["HARRIS_SCORE", "FAST_SCORE"]) ∧
    (p.str "stereo_tracking/detector/type" "ORB" = "SIFT" → 4 ≤ cv.major ∧ 4 ≤ cv.minor) := by
  have h1 : Starts (fastParams p) ↔ p.str "stereo_tracking/detector/fast/type" "TYPE_9_16" ∈ ["TYPE_5_8", "TYPE_7_12", "TYPE_9_16"] := by
    unfold fastParams; rw [starts_map, starts_toFastType]
  have h2 : Starts (orbParams p) ↔ p.str "stereo_tracking/detector/orb/score_type" "HARRIS_SCORE" ∈ ["HARRIS_SCORE", "FAST_SCORE"] := by
    unfold orbParams; rw [starts_map, starts_toScoreType]
  unfold detectorParams
  split
  · rename_i h; rw [h1]; simp [h]
  · split
    · rename_i h; simp [h]
    · split
      · rename_i h; rw [h2]; simp [h]
      · split
        · rename_i h
          have : Starts (if cv.sift = true then Outcome.ok (Detector.sift (siftParams p)) else .throws) ↔ cv.sift = true := by
            split <;> simp [*]
          rw [this]
          simp [h, OpenCv.sift]
        · simp [*]

theorem starts_flow : Starts (flowParams p) ↔ p.str "stereo_tracking/sparse_optical_flow/type" "PyrLK" = "PyrLK" ∧
    2 ≤ (p.ints "stereo_tracking/sparse_optical_flow/win_size" [21, 21]).length ∧
    p.str "stereo_tracking/sparse_optical_flow/term_criteria/type" "COUNT+EPS" ∈
      ["COUNT", "MAX_ITER", "EPS", "COUNT+EPS", "MAX_ITER+EPS"] := by
  unfold flowParams
  split
  · rename_i h
    rw [starts_bind fun _ _ => starts_map, starts_toSize, starts_toCriteria]
    simp [h]
  · rename_i h; simp [h]

theorem starts_checkMatcher (m : Matcher) : Starts (checkMatcher m) ↔
    (1 ≤ m.width ∧ m.width % 2 = 1) ∧ (1 ≤ m.height ∧ m.height % 2 = 1) ∧ 0 < m.ratio ∧ m.ratio < 1 := by
  unfold checkMatcher
  rw [starts_ite_throws, starts_ite_throws]
  simp only [starts_ok, and_true, not_or, not_le, not_lt]
  constructor
  · rintro ⟨⟨h1, h2, h3, h4⟩, h5, h6⟩
    exact ⟨⟨by omega, by omega⟩, ⟨by omega, by omega⟩, h5, by simpa using h6⟩
  · rintro ⟨⟨h1, h2⟩, ⟨h3, h4⟩, h5, h6⟩
    exact ⟨⟨by omega, by omega, by omega, by omega⟩, h5, by simpa using h6⟩

theorem starts_stereo : Starts (stereo cv p) ↔ StereoValid cv p := by
  unfold stereo
  rw [starts_bind fun _ _ => starts_bind fun _ _ => starts_map, starts_detector, starts_flow]
  have hm : Starts (matcherParams p) ↔ _ :=
    starts_bind (P := _ ∧ (1 ≤ p.int "stereo_tracking/stereo_keypoint_matcher/window_size/width" 3 ∧
      p.int "stereo_tracking/stereo_keypoint_matcher/window_size/width" 3 % 2 = 1) ∧
      (1 ≤ p.int "stereo_tracking/stereo_keypoint_matcher/window_size/height" 3 ∧
      p.int "stereo_tracking/stereo_keypoint_matcher/window_size/height" 3 % 2 = 1) ∧
      0 < p.double "stereo_tracking/stereo_keypoint_matcher/ratio" 0.5 ∧
      p.double "stereo_tracking/stereo_keypoint_matcher/ratio" 0.5 < 1)
      fun _ _ => starts_bind fun _ _ => starts_checkMatcher _
  rw [hm, starts_toMatchingFilter, starts_toCost]
  constructor
  · rintro ⟨⟨h1, h2, h3, h4⟩, ⟨h5, h6, h7⟩, h8, h9, h10, h11, h12⟩
    exact ⟨h1, h2, h3, h4, h5, h6, h7, h8, h9, h10, h11, h12⟩
  · rintro ⟨h1, h2, h3, h4, h5, h6, h7, h8, h9, h10, h11, h12⟩
    exact ⟨⟨h1, h2, h3, h4⟩, ⟨h5, h6, h7⟩, h8, h9, h10, h11, h12⟩

theorem starts_frontend : Starts (frontend frames p) ↔ FrontendValid frames p := by
  unfold frontend
  rw [starts_ite_throws, starts_ite_throws, starts_ite_throws, starts_map]
  have h : Starts (barometerOverwriteParams p) ↔
      (p.bool "barometer/noise/overwrite" false = true → p.double "barometer/noise/barometer" 0.01 ≠ 0) := by
    unfold barometerOverwriteParams
    rw [starts_ite_ok, starts_ite_throws]
    refine imp_congr_right fun _ => ?_
    simp only [starts_ok, and_true, not_le]
    constructor
    · intro h e; rw [e] at h; norm_num at h
    · intro h; positivity
  rw [h]
  simp only [Bool.not_eq_false, not_and, not_or]
  exact ⟨fun h => ⟨⟨h.1, h.2.2.1⟩, h.2.1, h.2.2.2⟩, fun h => ⟨h.1.1, h.2, h.1.2, h.3⟩⟩

theorem starts_estimator : Starts (estimatorParams p) ↔ ∀ w ∈ schemed, p.str "stereo_factors/robust/type" "huber" = w →
    p.str ("stereo_factors/robust/" ++ w ++ "/reweight_scheme") "BLOCK" ∈ ["BLOCK", "SCALAR"] := by
  simp only [schemed, List.forall_mem_cons, String.reduceAppend]
  unfold estimatorParams
  dsimp only
  split
  · rename_i h; rw [starts_map, starts_toReweight]; simp [h]
  split
  · rename_i h; rw [starts_map, starts_toReweight]; simp [h]
  split
  · rename_i h; rw [starts_map, starts_toReweight]; simp [h]
  split
  · rename_i h; rw [starts_map, starts_toReweight]; simp [h]
  split
  · rename_i h; rw [starts_map, starts_toReweight]; simp [h]
  split
  · rename_i h; rw [starts_map, starts_toReweight]; simp [h]
  split
  · rename_i h; simp [h]
  split
  · rename_i h; rw [starts_map, starts_toReweight]; simp [h]
  split
  · rename_i h; rw [starts_map, starts_toReweight]; simp [h]
  · simp [*]

theorem starts_backend : Starts (backend frames p) ↔ BackendValid frames p := by
  have h1 : Starts (isamParams p) ↔ p.str "isam2/optimization" "GaussNewton" ∈ ["GaussNewton", "Dogleg"] := by
    unfold isamParams isamMethodParams
    rw [starts_map]
    repeat' split <;> simp [*]
  have h2 : Starts (stereoFactorParams frames p) ↔ (p.bool "optimisation/factors/stereo" true = true →
      frames (p.str "stereo_factors/left_cam_frame" "stereo") = true ∧ (p.bool "stereo_factors/robust/enabled" true = true →
        Starts (estimatorParams p))) := by
    unfold stereoFactorParams
    rw [starts_ite_ok]
    refine imp_congr_right fun _ => ?_
    rw [starts_ite_throws, starts_map]
    unfold robustnessParams
    rw [starts_ite_ok, starts_map]
    simp
  have h3 : Starts (barometerBiasParams p) ↔ (p.bool "optimisation/factors/barometer" true = true →
      p.double "barometer/noise/barometer_bias" 0.000001 ≠ 0) := by
    unfold barometerBiasParams
    rw [starts_ite_ok, starts_ite_throws]
    simp
  have h4 : Starts (marginalisationParams p) ↔ (p.bool "optimisation/marginalisation/enabled" false = true →
      0 ≤ p.int "optimisation/marginalisation/window_size" 100) := by
    unfold marginalisationParams
    rw [starts_ite_ok, starts_ite_throws]
    simp
  unfold backend
  rw [starts_ite_throws, starts_bind fun _ _ => starts_bind fun _ _ => starts_bind fun _ _ => starts_map, h1, h2, h3, h4,
    starts_estimator]
  simp only [Bool.not_eq_false]
  exact ⟨fun h => ⟨h.1, h.2.1, fun e => (h.2.2.1 e).1, fun e => (h.2.2.1 e).2, h.2.2.2.1, h.2.2.2.2⟩,
    fun h => ⟨h.frame, h.optimization, fun e => ⟨h.camera e, h.scheme e⟩, h.barometer, h.marginalisation⟩⟩

theorem starts_single : Starts (single cv frames p) ↔ Valid cv frames p := by
  have h1 : Starts (formatter p) ↔ p.str "pointcloud_type" "OUSTER" ∈ ["OUSTER", "CUSTOM"] := by
    unfold formatter; rw [starts_map, starts_toSensorType]
  have h2 : Starts (stereoIfEnabled cv p) ↔ (p.bool "optimisation/factors/stereo" true = true → StereoValid cv p) := by
    unfold stereoIfEnabled; rw [starts_ite_ok, starts_map, starts_stereo]
  have h3 : Starts (threadCount p) ↔ 1 ≤ p.int "threads" 4 := by
    unfold threadCount; rw [starts_ite_throws]; simp
  unfold single
  rw [starts_bind fun _ _ => starts_bind fun _ _ => starts_bind fun _ _ => starts_bind fun _ _ => starts_bind fun _ _ => starts_map,
    starts_frontend, starts_backend, h1, starts_lidar, h2, h3]
  exact ⟨fun h => ⟨h.1, h.2.1, h.2.2.1, h.2.2.2.1, h.2.2.2.2.1, h.2.2.2.2.2⟩, fun h => ⟨h.1, h.2, h.3, h.4, h.5, h.6⟩⟩

/-! ### The other processes -/

theorem starts_frontLidar : Starts (frontLidar p) ↔ (p.bool "optimisation/factors/registration" true = true → FilterValid p ∧
    p.str "normal_estimation/method" "knn" ∈ ["knn", "radius"] ∧
    p.str "registration_covariance/method" "CENSI" ∈ ["CONSTANT", "CENSI", "LLS"] ∧
    p.str "registration_covariance/point_covariance/method" "RANGE" ∈ ["CONSTANT", "VOXEL_SIZE", "RANGE", "RANGE_BIAS"]) := by
  unfold frontLidar
  rw [starts_ite_ok]
  refine imp_congr_right fun _ => ?_
  rw [starts_bind fun _ _ => starts_bind fun _ _ => starts_map, starts_unitVectors, starts_filterIfEnabled, starts_normals]
  exact ⟨fun h => ⟨h.2.1, h.2.2, h.1⟩, fun h => ⟨h.2.2, h.1, h.2.1⟩⟩

theorem starts_backLidar : Starts (backLidar frames p) ↔ (p.bool "optimisation/factors/registration" true = true → MappingValid p ∧
    MethodValid p "s2s/" ∧ (p.bool "s2m/enabled" true = true → MethodValid p "s2m/") ∧ CovarianceValid p ∧
    frames "lidar" = true) := by
  unfold backLidar
  rw [starts_ite_ok]
  refine imp_congr_right fun _ => ?_
  rw [starts_bind (P := MappingValid p ∧
    MethodValid p "s2s/" ∧ (p.bool "s2m/enabled" true = true → MethodValid p "s2m/") ∧ CovarianceValid p ∧
    frames "lidar" = true)]
  · rw [starts_unitVectors]
    exact ⟨fun h => h.2, fun h => ⟨⟨h.2.2.2.1.method, h.2.2.2.1.point⟩, h⟩⟩
  · intro u hu
    rw [starts_bind fun _ _ => starts_map, starts_mapping, starts_registration ⟨u, hu⟩]

theorem starts_threads : Starts (threadCount p) ↔ 1 ≤ p.int "threads" 4 := by
  unfold threadCount; rw [starts_ite_throws]; simp

theorem starts_formatter : Starts (formatter p) ↔ p.str "pointcloud_type" "OUSTER" ∈ ["OUSTER", "CUSTOM"] := by
  unfold formatter; rw [starts_map, starts_toSensorType]

theorem starts_stereoIfEnabled : Starts (stereoIfEnabled cv p) ↔
    (p.bool "optimisation/factors/stereo" true = true → StereoValid cv p) := by
  unfold stereoIfEnabled; rw [starts_ite_ok, starts_map, starts_stereo]

theorem starts_frontProcess : Starts (frontProcess frames p) ↔ FrontendValid frames p ∧
    p.str "pointcloud_type" "OUSTER" ∈ ["OUSTER", "CUSTOM"] ∧
    (p.bool "optimisation/factors/registration" true = true → FilterValid p ∧
      p.str "normal_estimation/method" "knn" ∈ ["knn", "radius"] ∧
      p.str "registration_covariance/method" "CENSI" ∈ ["CONSTANT", "CENSI", "LLS"] ∧
      p.str "registration_covariance/point_covariance/method" "RANGE" ∈ ["CONSTANT", "VOXEL_SIZE", "RANGE", "RANGE_BIAS"]) ∧
    1 ≤ p.int "threads" 4 := by
  unfold frontProcess
  rw [starts_bind fun _ _ => starts_bind fun _ _ => starts_bind fun _ _ => starts_map, starts_frontend, starts_formatter,
    starts_frontLidar, starts_threads]

theorem starts_backProcess : Starts (backProcess cv frames p) ↔ BackendValid frames p ∧
    (p.bool "optimisation/factors/registration" true = true → MappingValid p ∧ MethodValid p "s2s/" ∧
      (p.bool "s2m/enabled" true = true → MethodValid p "s2m/") ∧ CovarianceValid p ∧ frames "lidar" = true) ∧
    (p.bool "optimisation/factors/stereo" true = true → StereoValid cv p) ∧ 1 ≤ p.int "threads" 4 := by
  unfold backProcess
  rw [starts_bind fun _ _ => starts_bind fun _ _ => starts_bind fun _ _ => starts_map, starts_backend, starts_backLidar,
    starts_stereoIfEnabled, starts_threads]

theorem starts_stereoProcess : Starts (stereoProcess cv p) ↔ StereoValid cv p ∧ 1 ≤ p.int "threads" 4 := by
  unfold stereoProcess
  rw [starts_bind fun _ _ => starts_map, starts_stereo, starts_threads]

/-! ### Undefined behaviour -/

theorem bind_eq_ub {α β : Type} {x : Outcome α} {f : α → Outcome β} (h : x >>= f = .ub) :
    x = .ub ∨ ∃ a, x = .ok a ∧ f a = .ub := by
  cases x with
  | ok a => exact .inr ⟨a, rfl, h⟩
  | throws => cases h
  | ub => exact .inl rfl

theorem toUnsigned_ub {x : ℚ} (h : toUnsigned x = .ub) : ¬CountValid x := by
  intro hv
  obtain ⟨a, ha⟩ := (starts_toUnsigned x).mpr hv
  rw [h] at ha
  cases ha

/-- No undefined behaviour. -/
def Defined {α : Type} (x : Outcome α) : Prop := x ≠ .ub

theorem defined_ok {α : Type} {a : α} : Defined (.ok a) := nofun

theorem defined_throws {α : Type} : Defined (.throws : Outcome α) := nofun

theorem defined_bind {α β : Type} {x : Outcome α} {f : α → Outcome β} (h : Defined x) (hf : ∀ a, Defined (f a)) :
    Defined (x >>= f) := by
  intro e
  rcases bind_eq_ub e with e | ⟨a, -, e⟩
  · exact h e
  · exact hf a e

theorem defined_ite {α : Type} {c : Prop} [Decidable c] {x y : Outcome α} (hx : Defined x) (hy : Defined y) :
    Defined (if c then x else y) := by
  split
  · exact hx
  · exact hy

/-- Takes a computation apart. -/
macro "defined" : tactic => `(tactic|
  repeat' first | exact defined_ok | exact defined_throws | apply defined_ite | apply defined_bind | intro _)

theorem defined_frontend : Defined (frontend frames p) := by
  unfold frontend barometerOverwriteParams; defined

theorem defined_backend : Defined (backend frames p) := by
  unfold backend isamParams isamMethodParams stereoFactorParams robustnessParams estimatorParams toReweight barometerBiasParams
    marginalisationParams
  defined

theorem defined_formatter : Defined (formatter p) := by
  unfold formatter Lidar.toSensorType; defined

theorem defined_unitVectors : Defined (unitVectors p) := by
  unfold unitVectors Lidar.requiresUnitVectorsNamed Lidar.toCovMethod Lidar.toPointMethod; defined

theorem defined_normals : Defined (normals p) := by
  unfold normals neighbourParams; defined

theorem defined_fastGicp {pre : String} : Defined (fastGicpParams p pre) := by
  unfold fastGicpParams toRegularization; defined

theorem defined_method {pre : String} : Defined (methodParams p pre) := by
  unfold methodParams
  refine defined_bind (by unfold Lidar.toRegMethod; defined) fun m => ?_
  cases m
  · exact defined_ok
  · exact defined_ok
  · exact defined_bind defined_fastGicp fun _ => defined_ok
  · exact defined_bind defined_fastGicp fun _ => defined_ok
  · refine defined_bind defined_fastGicp fun _ => ?_
    unfold toAccumulation toNeighborSearch
    defined
  · exact defined_ok

theorem defined_construct {c : Lidar.RegConfig} : Defined (Lidar.construct c) := by
  unfold Lidar.construct Lidar.configureS2m Lidar.toRegMethod Lidar.toCovMethod
  refine defined_bind (by defined) fun s2s => defined_bind (by defined) fun s2m => defined_bind (by defined) fun cov => ?_
  dsimp only
  refine defined_ite defined_ok ?_
  unfold Lidar.configureEstimate Lidar.toCovModel
  refine defined_bind (by defined) fun model => defined_bind ?_ fun m => defined_bind ?_ fun g => ?_
  · cases cov <;> simp only [Lidar.createBindings] <;> defined
  · unfold Lidar.toPointMethod; defined
  · cases g <;> simp only [Lidar.setPointVariance, Lidar.setRange] <;> defined

theorem defined_registration {u : Bool} : Defined (registration frames p u) := by
  unfold registration s2mParams
  refine defined_bind defined_method fun _ => defined_bind ?_ fun _ => defined_bind defined_construct fun _ => by defined
  refine defined_ite (defined_bind defined_method fun _ => defined_ok) defined_ok

theorem defined_stereo : Defined (stereo cv p) := by
  unfold stereo detectorParams flowParams matcherParams checkMatcher fastParams orbParams toFastType toScoreType toCriteria toCost
    Stereo.toMatchingFilter
  refine defined_bind (by defined) fun _ => defined_bind ?_ fun _ => by defined
  refine defined_ite (defined_bind ?_ fun _ => by defined) defined_throws
  unfold toSize
  split <;> defined

theorem defined_threads : Defined (threadCount p) := by
  unfold threadCount; defined

theorem ub_filter (h : filterIfEnabled p = .ub) : p.bool "voxel_grid_filter/enabled" true = true ∧
    ¬CountValid (p.double "voxel_grid_filter/minimum_points_number_per_voxel" 1) := by
  unfold filterIfEnabled at h
  split at h
  · rcases bind_eq_ub h with h | ⟨a, -, h⟩
    · unfold filter at h
      rcases bind_eq_ub h with h | ⟨a, -, h⟩
      · unfold voxelParams at h
        split at h
        · rename_i he
          rcases bind_eq_ub h with h | ⟨a, -, h⟩
          · exact ⟨he, toUnsigned_ub h⟩
          · cases h
        · cases h
      · refine absurd h (defined_bind ?_ fun _ => defined_ok)
        unfold sampleParams
        defined
    · cases h
  · cases h

theorem ub_mapping (h : mapping p = .ub) :
    ¬CountValid (p.double "mapping/voxel_grid_filter/minimum_points_number_per_voxel" 1) := by
  unfold mapping at h
  split at h
  · cases h
  · rcases bind_eq_ub h with h | ⟨a, -, h⟩
    · have hd : ∀ w, Defined (Mapping.toMethod w) := by intro w; unfold Mapping.toMethod; defined
      exact absurd h (hd _)
    · rcases bind_eq_ub h with h | ⟨a, -, h⟩
      · exact toUnsigned_ub h
      · cases h

theorem ub_single (h : single cv frames p = .ub) : p.bool "optimisation/factors/registration" true = true ∧
    ((p.bool "voxel_grid_filter/enabled" true = true ∧
      ¬CountValid (p.double "voxel_grid_filter/minimum_points_number_per_voxel" 1)) ∨
    ¬CountValid (p.double "mapping/voxel_grid_filter/minimum_points_number_per_voxel" 1)) := by
  unfold single at h
  rcases bind_eq_ub h with h | ⟨_, -, h⟩
  · exact absurd h defined_frontend
  rcases bind_eq_ub h with h | ⟨_, -, h⟩
  · exact absurd h defined_backend
  rcases bind_eq_ub h with h | ⟨_, -, h⟩
  · exact absurd h defined_formatter
  rcases bind_eq_ub h with h | ⟨_, -, h⟩
  · unfold singleLidar at h
    split at h
    · rename_i he
      refine ⟨he, ?_⟩
      rcases bind_eq_ub h with h | ⟨_, -, h⟩
      · exact absurd h defined_unitVectors
      rcases bind_eq_ub h with h | ⟨_, -, h⟩
      · exact .inl (ub_filter h)
      rcases bind_eq_ub h with h | ⟨_, -, h⟩
      · exact absurd h defined_normals
      rcases bind_eq_ub h with h | ⟨_, -, h⟩
      · exact .inr (ub_mapping h)
      rcases bind_eq_ub h with h | ⟨_, -, h⟩
      · exact absurd h defined_registration
      · cases h
    · cases h
  rcases bind_eq_ub h with h | ⟨_, -, h⟩
  · refine absurd h ?_
    unfold stereoIfEnabled
    exact defined_ite (defined_bind defined_stereo fun _ => defined_ok) defined_ok
  rcases bind_eq_ub h with h | ⟨_, -, h⟩
  · exact absurd h defined_threads
  · cases h

end Params

end Serpent
