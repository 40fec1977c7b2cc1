import Verif.Lemmas.Parameters

/-!
# C125: options that are set take effect

`single cv frames p = .ok s`: the node of node.cpp starts with the parameter server `p` and consists of the components `s`.
`s.lidar = some (f, b)`: the modules for pointclouds exist. The hypotheses list the options that the user has set.
-/

namespace Serpent

namespace Params

set_option Elab.async false

variable {cv : OpenCv} {frames : String → Bool} {p : Server} {s : Single} {f : LidarFront} {b : LidarBack}

/-! ### Nothing else has an effect -/

/-- Every process depends only on the calls in the table taken from the sources: if all of them give the same with two parameter
servers, all processes are the same. -/
theorem C125_only_listed_reads {p q : Server} (h : ∀ r ∈ reads, r.Same p q) :
    single cv frames p = single cv frames q ∧ frontProcess frames p = frontProcess frames q ∧
      backProcess cv frames p = backProcess cv frames q ∧ stereoProcess cv p = stereoProcess cv q :=
  ⟨single_same h, frontProcess_same h, backProcess_same h, stereoProcess_same h⟩

/-- Setting an option that is not in the table has no effect at all, and is not refused: this is what happens to a misspelt option. -/
theorem C125_unknown_ignored (k : String) (v : Value) (h : ∀ r ∈ reads, r.name ≠ k) :
    single cv frames (p.set k v) = single cv frames p ∧ frontProcess frames (p.set k v) = frontProcess frames p ∧
      backProcess cv frames (p.set k v) = backProcess cv frames p ∧ stereoProcess cv (p.set k v) = stereoProcess cv p :=
  C125_only_listed_reads fun r hr => same_set_other r (h r hr)

theorem neverRead_shipped : ∀ k ∈ neverRead, ∃ v, (k, v) ∈ shipped := by
  have h : ∀ k ∈ neverRead, k ∈ shipped.map Prod.fst := by decide +kernel
  intro k hk
  obtain ⟨⟨k', v⟩, hm, rfl⟩ := List.mem_map.mp (h k hk)
  exact ⟨v, hm⟩

theorem neverRead_not_read : ∀ k ∈ neverRead, ∀ r ∈ reads, r.name ≠ k := by
  have h : ∀ k ∈ neverRead, k ∉ reads.map Read.name := by decide +kernel
  intro k hk r hr e
  exact h k hk (List.mem_map.mpr ⟨r, hr, e⟩)

/-- **The property fails** for fourteen options of the configuration files: each is in the files, but whatever it is set to, with
any other options, no process changes. The statistical outlier filter is always run with one neighbour and zero standard deviations;
none of the options of the optical flow can be changed; the contrast threshold of SIFT is read under another name. -/
theorem C125_fails_options_without_effect (k : String) (hk : k ∈ neverRead) :
    (∃ v, (k, v) ∈ shipped) ∧ ∀ (cv : OpenCv) (frames : String → Bool) (p : Server) (v : Value),
      single cv frames (p.set k v) = single cv frames p ∧ frontProcess frames (p.set k v) = frontProcess frames p ∧
        backProcess cv frames (p.set k v) = backProcess cv frames p ∧ stereoProcess cv (p.set k v) = stereoProcess cv p :=
  ⟨neverRead_shipped k hk, fun _ _ _ v => C125_unknown_ignored k v (neverRead_not_read k hk)⟩

/-- The option is read, or it is one of those that are never read. -/
def readOrListed (e : String × Value) : Bool := decide (e.1 ∈ neverRead) || decide (e.1 ∈ reads.map Read.name)

theorem shipped_readOrListed_0 : ((shipped.drop 0).take 60).all readOrListed = true := by decide +kernel

theorem shipped_readOrListed_1 : ((shipped.drop 60).take 60).all readOrListed = true := by decide +kernel

theorem shipped_readOrListed_2 : ((shipped.drop 120).take 60).all readOrListed = true := by decide +kernel

theorem shipped_readOrListed_3 : (shipped.drop 180).all readOrListed = true := by decide +kernel

theorem shipped_readOrListed : shipped.all readOrListed = true := by
  have split : ∀ (l : List (String × Value)) (f : String × Value → Bool), l.all f = ((l.take 60).all f && (l.drop 60).all f) := by
    intro l f
    rw [← List.all_append, List.take_append_drop]
  have h0 : (shipped.drop 0).all readOrListed = ((shipped.drop 60).all readOrListed) := by
    rw [split, shipped_readOrListed_0, Bool.true_and, List.drop_drop]
  have h1 : (shipped.drop 60).all readOrListed = ((shipped.drop 120).all readOrListed) := by
    rw [split, shipped_readOrListed_1, Bool.true_and, List.drop_drop]
  have h2 : (shipped.drop 120).all readOrListed = ((shipped.drop 180).all readOrListed) := by
    rw [split, shipped_readOrListed_2, Bool.true_and, List.drop_drop]
  exact h0.trans (h1.trans (h2.trans shipped_readOrListed_3))

/-- Every other option of the configuration files is read. -/
theorem C125_others_are_read : ∀ e ∈ shipped, e.1 ∉ neverRead → ∃ r ∈ reads, r.name = e.1 := by
  have h : ∀ e ∈ shipped, e.1 ∉ neverRead → e.1 ∈ reads.map Read.name := fun e he hn => by
    have := List.all_eq_true.mp shipped_readOrListed e he
    unfold readOrListed at this
    rw [decide_eq_false hn, Bool.false_or] at this
    exact of_decide_eq_true this
  intro e he hn
  obtain ⟨r, hr, e'⟩ := List.mem_map.mp (h e he hn)
  exact ⟨r, hr, e'⟩

example : ("stereo_tracking/sparse_optical_flow/pyrlk/min_eig_threshold" ∈ neverRead) ∧
    (∃ s, single ⟨4, 4⟩ shippedFrames shippedServer = .ok s ∧
      s.stereo.map (fun t => t.flow.minEigThreshold) = some 0) := by
  refine ⟨by decide +kernel, ?_⟩
  have h : (match single ⟨4, 4⟩ shippedFrames shippedServer with
    | .ok s => decide (s.stereo.map (fun t => t.flow.minEigThreshold) = some 0)
    | _ => false) = true := by decide +kernel
  revert h
  cases single ⟨4, 4⟩ shippedFrames shippedServer with
  | ok s => intro h; exact ⟨s, rfl, of_decide_eq_true h⟩
  | throws => intro h; cases h
  | ub => intro h; cases h

/-- **The property fails** for a value of another type: `0` or `"true"` for a flag, a number for a word, a word for a number; the
call then gives the default, as if the option had been left out. -/
theorem C125_fails_wrong_type (k : String) :
    (∀ d v, (∀ b, v ≠ .bool b) → (p.set k v).bool k d = (p.erase k).bool k d) ∧
    (∀ d v, (∀ w, v ≠ .string w) → (p.set k v).str k d = (p.erase k).str k d) ∧
    (∀ d v, (∀ x, v ≠ .double x) → (∀ n, v ≠ .int n) → (p.set k v).double k d = (p.erase k).double k d) ∧
    (∀ d v, (∀ x, v ≠ .double x) → (∀ n, v ≠ .int n) → (p.set k v).int k d = (p.erase k).int k d) := by
  refine ⟨?_, ?_, ?_, ?_⟩ <;> intro d v <;> cases v <;>
    simp [Server.bool, Server.str, Server.double, Server.int, Server.set, Server.erase]

/-- A number with a fraction given for an integer is rounded: to the nearest integer if it is not negative, half upwards, but always
downwards if it is negative, so that the error may come close to one. -/
theorem C125_rounding (k : String) (d : Int) (x : ℚ) :
    (0 ≤ x → (p.set k (.double x)).int k d ≤ x + 1 / 2 ∧ x < (p.set k (.double x)).int k d + 1 / 2) ∧
    (x < 0 → (p.set k (.double x)).int k d ≤ x ∧ x < (p.set k (.double x)).int k d + 1) ∧
    (∀ n : Int, x = n → (p.set k (.double x)).int k d = n) := by
  have e : (p.set k (.double x)).int k d = if x - truncate x < 1 / 2 then x.floor else x.ceil := by
    simp [Server.int, Server.set]
  have hf := Rat.floor_le x
  have hf' := Rat.lt_floor_add_one x
  have hc := Rat.le_ceil (x := x)
  have hc' := Rat.ceil_lt (x := x)
  push_cast at hf'
  rw [e]
  refine ⟨fun hx => ?_, fun hx => ?_, fun n hn => ?_⟩
  · rw [show truncate x = x.floor from if_pos hx]
    split
    · constructor <;> linarith
    · have h1 : x.ceil < x.floor + 2 := by
        have : (x.ceil : ℚ) < ((x.floor + 2 : Int) : ℚ) := by push_cast; linarith
        exact_mod_cast this
      have h2 : ((x.ceil : Int) : ℚ) ≤ x.floor + 1 := by exact_mod_cast Int.lt_add_one_iff.1 (by omega)
      constructor <;> linarith
  · rw [show truncate x = x.ceil from if_neg (not_le.2 hx), if_pos (by linarith)]
    exact ⟨hf, hf'⟩
  · subst hn
    rw [Rat.floor_intCast, Rat.ceil_intCast, ite_self]

/-- … for example the filter of voxels stays enabled if it is disabled with `0`: every process is the same as without the option. -/
theorem C125_fails_zero_for_false :
    single cv frames (p.set "voxel_grid_filter/enabled" (.int 0)) = single cv frames (p.erase "voxel_grid_filter/enabled") := by
  apply single_same
  intro r hr
  by_cases hk : r.name = "voxel_grid_filter/enabled"
  · have hb : ∀ r ∈ reads, r.name = "voxel_grid_filter/enabled" → (match r with | .bool _ _ => true | _ => false) = true := by
      have : ∀ r ∈ reads, (decide (r.name = "voxel_grid_filter/enabled") = true →
          (match r with | .bool _ _ => true | _ => false) = true) := by decide +kernel
      exact fun r hr hk => this r hr (by simpa using hk)
    have := hb r hr hk
    cases r with
    | bool k d =>
      simp only [Read.name] at hk
      subst hk
      exact (C125_fails_wrong_type "voxel_grid_filter/enabled").1 d (.int 0) (by simp)
    | str k d => cases this
    | double k d => cases this
    | int k d => cases this
    | ints k d => cases this
  · exact same_of_eq r (by simp only [Server.set, Server.erase, if_neg hk])

/-! ### The modules that exist -/

/-- The modules for pointclouds and for stereo images exist exactly if their factors are enabled. -/
theorem C125_modules (h : single cv frames p = .ok s) {r t : Bool} (hf : Flags p [("optimisation/factors/registration", r),
    ("optimisation/factors/stereo", t)]) : s.lidar.isSome = r ∧ s.stereo.isSome = t ∧ s.backend.registration = r ∧
      s.backend.stereo.isSome = t ∧ s.frontend.stereo = t := by
  have hf := flags hf
  simp only [List.forall_mem_cons] at hf
  obtain ⟨hfe, hbe, -, hl, hs, -⟩ := single_eq_ok.mp h
  have hfe' : s.frontend.stereo = t := by
    unfold frontend at hfe
    split at hfe
    · cases hfe
    · split at hfe
      · cases hfe
      · split at hfe
        · cases hfe
        · obtain ⟨a, -, hfe⟩ := bind_eq_ok hfe
          injection hfe with e
          rw [← e]
          exact hf.2.1 _
  unfold backend at hbe
  split at hbe
  · cases hbe
  · obtain ⟨i, -, hbe⟩ := bind_eq_ok hbe
    obtain ⟨sf, hsf, hbe⟩ := bind_eq_ok hbe
    obtain ⟨bb, -, hbe⟩ := bind_eq_ok hbe
    obtain ⟨m, -, hbe⟩ := bind_eq_ok hbe
    injection hbe with e
    rw [← e]
    simp only [singleLidar, stereoIfEnabled, stereoFactorParams, hf] at hl hs hsf
    refine ⟨?_, ?_, hf.1 _, ?_, hfe'⟩
    · cases r
      · simp only [Bool.false_eq_true, if_false, Outcome.ok.injEq] at hl
        rw [← hl]; rfl
      · simp only [if_true] at hl
        obtain ⟨_, -, hl⟩ := bind_eq_ok hl
        obtain ⟨_, -, hl⟩ := bind_eq_ok hl
        obtain ⟨_, -, hl⟩ := bind_eq_ok hl
        obtain ⟨_, -, hl⟩ := bind_eq_ok hl
        obtain ⟨_, -, hl⟩ := bind_eq_ok hl
        injection hl with hl
        rw [← hl]; rfl
    · cases t
      · simp only [Bool.false_eq_true, if_false, Outcome.ok.injEq] at hs
        rw [← hs]; rfl
      · simp only [if_true] at hs
        obtain ⟨_, -, hs⟩ := bind_eq_ok hs
        injection hs with hs
        rw [← hs]; rfl
    · cases t
      · simp only [Bool.false_eq_true, if_false, Outcome.ok.injEq] at hsf
        rw [← hsf]; rfl
      · simp only [if_true] at hsf
        split at hsf
        · cases hsf
        · obtain ⟨_, -, hsf⟩ := bind_eq_ok hsf
          injection hsf with hsf
          rw [← hsf]; rfl

/-- The number of threads. -/
theorem C125_threads (h : single cv frames p = .ok s) {n : Nat} (hn : Whole p "threads" n) : s.threads = n := by
  obtain ⟨-, -, -, -, -, ht⟩ := single_eq_ok.mp h
  unfold threadCount at ht
  rw [int_whole hn] at ht
  split at ht
  · cases ht
  · injection ht with e
    rw [← e]; simp

/-! ### Filters -/

theorem filter_exists (h : single cv frames p = .ok s) (hl : s.lidar = some (f, b)) {g : Filter} (hg : f.filter = some g) :
    filter p = .ok g := by
  obtain ⟨-, -, -, hs, -⟩ := single_eq_ok.mp h
  rw [hl] at hs
  obtain ⟨-, hf, -⟩ := lidar_eq_ok hs
  rw [hg] at hf
  unfold filterIfEnabled at hf
  split at hf
  · obtain ⟨a, ha, hf⟩ := bind_eq_ok hf
    cases hf
    exact ha
  · cases hf

theorem filter_enabled (h : single cv frames p = .ok s) (hl : s.lidar = some (f, b))
    (he : (p.bool "voxel_grid_filter/enabled" true || p.bool "body_filter/enabled" false || p.bool "range_filter/enabled" true ||
      p.bool "statistical_outlier_removal/enabled" false || p.bool "random_sample_filter/enabled" false) = true) :
    ∃ g, f.filter = some g ∧ filter p = .ok g := by
  obtain ⟨-, -, -, hs, -⟩ := single_eq_ok.mp h
  rw [hl] at hs
  obtain ⟨-, hf, -⟩ := lidar_eq_ok hs
  unfold filterIfEnabled at hf
  rw [if_pos he] at hf
  obtain ⟨a, ha, hf⟩ := bind_eq_ok hf
  injection hf with e
  exact ⟨a, e.symm, ha⟩

/-- The filter of voxels. -/
theorem C125_voxel_filter (h : single cv frames p = .ok s) (hl : s.lidar = some (f, b))
    (hf : Flag p "voxel_grid_filter/enabled" true) {leaf : ℚ} {n : Nat} (hn : n < 2 ^ 32)
    (hv : Numbers p [("voxel_grid_filter/leaf_size", leaf), ("voxel_grid_filter/minimum_points_number_per_voxel", n)]) :
    ∃ g, f.filter = some g ∧ g.voxel = some ⟨leaf, n⟩ := by
  obtain ⟨g, hg, hp⟩ := filter_enabled h hl (by simp [bool_flag hf])
  refine ⟨g, hg, ?_⟩
  have hv := numbers hv
  simp only [List.forall_mem_cons] at hv
  obtain ⟨hx, -⟩ := filter_eq_ok hp
  simp only [voxelParams, bool_flag hf, if_true, hv, toUnsigned_natCast hn, Outcome.bind_ok, Outcome.ok.injEq] at hx
  exact hx.symm

/-- The filter of the body. -/
theorem C125_body_filter (h : single cv frames p = .ok s) (hl : s.lidar = some (f, b)) (hf : Flag p "body_filter/enabled" true)
    {x₁ y₁ z₁ x₂ y₂ z₂ x₃ y₃ z₃ x₄ y₄ z₄ : ℚ} (hv : Numbers p [("body_filter/min/x", x₁), ("body_filter/min/y", y₁),
      ("body_filter/min/z", z₁), ("body_filter/max/x", x₂), ("body_filter/max/y", y₂), ("body_filter/max/z", z₂),
      ("body_filter/translation/x", x₃), ("body_filter/translation/y", y₃), ("body_filter/translation/z", z₃),
      ("body_filter/rotation/rx", x₄), ("body_filter/rotation/ry", y₄), ("body_filter/rotation/rz", z₄)]) :
    ∃ g, f.filter = some g ∧ g.body = some ⟨(x₁, y₁, z₁), (x₂, y₂, z₂), (x₃, y₃, z₃), (x₄, y₄, z₄)⟩ := by
  obtain ⟨g, hg, hp⟩ := filter_enabled h hl (by simp [bool_flag hf])
  refine ⟨g, hg, ?_⟩
  have hv := numbers hv
  simp only [List.forall_mem_cons] at hv
  obtain ⟨-, -, hx, -⟩ := filter_eq_ok hp
  simp only [bodyParams, bool_flag hf, if_true, hv] at hx
  exact hx.symm

/-- The filter of the range. -/
theorem C125_range_filter (h : single cv frames p = .ok s) (hl : s.lidar = some (f, b)) (hf : Flag p "range_filter/enabled" true)
    {x y : ℚ} (hv : Numbers p [("range_filter/min", x), ("range_filter/max", y)]) :
    ∃ g, f.filter = some g ∧ g.range = some ⟨x, y⟩ := by
  obtain ⟨g, hg, hp⟩ := filter_enabled h hl (by simp [bool_flag hf])
  refine ⟨g, hg, ?_⟩
  have hv := numbers hv
  simp only [List.forall_mem_cons] at hv
  obtain ⟨-, -, -, hx, -⟩ := filter_eq_ok hp
  simp only [rangeParams, bool_flag hf, if_true, hv] at hx
  exact hx.symm

/-- The random sample. -/
theorem C125_random_sample (h : single cv frames p = .ok s) (hl : s.lidar = some (f, b))
    (hf : Flag p "random_sample_filter/enabled" true) {n seed : Nat} (hn : n < 2 ^ 32) (hs : seed < 2 ^ 32)
    (hv : Wholes p [("random_sample_filter/sample_size", n), ("random_sample_filter/random_seed", seed)]) :
    ∃ g, f.filter = some g ∧ g.sample = some ⟨n, seed⟩ := by
  obtain ⟨g, hg, hp⟩ := filter_enabled h hl (by simp [bool_flag hf])
  refine ⟨g, hg, ?_⟩
  have hv := wholes hv
  simp only [List.forall_mem_cons] at hv
  obtain ⟨-, hx, -⟩ := filter_eq_ok hp
  have e1 : wrapUnsigned n = n := by unfold wrapUnsigned; omega
  have e2 : wrapUnsigned seed = seed := by unfold wrapUnsigned; omega
  simp only [sampleParams, bool_flag hf, if_true, hv] at hx
  rw [if_neg (by omega), if_neg (by omega), e1, e2] at hx
  injection hx with e
  exact e.symm

/-- The filter of outliers: with the names that the code reads. -/
theorem C125_outlier_filter_partial (h : single cv frames p = .ok s) (hl : s.lidar = some (f, b))
    (hf : Flag p "statistical_outlier_removal/enabled" true) {k : Int} {x : ℚ}
    (hk : Whole p "statistical_outlier_removal_filter/mean_k" k)
    (hx : Number p "statistical_outlier_removal_filter/stddev_mul_thresh" x) :
    ∃ g, f.filter = some g ∧ g.outliers = some ⟨k, x⟩ := by
  obtain ⟨g, hg, hp⟩ := filter_enabled h hl (by simp [bool_flag hf])
  refine ⟨g, hg, ?_⟩
  obtain ⟨-, -, -, -, ho⟩ := filter_eq_ok hp
  simp only [outlierParams, bool_flag hf, if_true, int_whole hk, double_number hx] at ho
  exact ho.symm

/-- **The property fails** for the filter of outliers: with the options of the configuration files, whatever their values. -/
theorem C125_fails_outlier_filter (h : single cv frames p = .ok s) (hl : s.lidar = some (f, b))
    (hf : Flag p "statistical_outlier_removal/enabled" true) (h1 : p "statistical_outlier_removal_filter/mean_k" = none)
    (h2 : p "statistical_outlier_removal_filter/stddev_mul_thresh" = none) :
    ∃ g, f.filter = some g ∧ g.outliers = some ⟨1, 0⟩ := by
  obtain ⟨g, hg, hp⟩ := filter_enabled h hl (by simp [bool_flag hf])
  refine ⟨g, hg, ?_⟩
  obtain ⟨-, -, -, -, ho⟩ := filter_eq_ok hp
  simp only [outlierParams, bool_flag hf, if_true, Server.int, Server.double, h1, h2] at ho
  exact ho.symm

/-- A filter that is disabled is not run. -/
theorem C125_disabled_filters (h : single cv frames p = .ok s) (hl : s.lidar = some (f, b)) {g : Filter} (hg : f.filter = some g) :
    (Flag p "voxel_grid_filter/enabled" false → g.voxel = none) ∧ (Flag p "body_filter/enabled" false → g.body = none) ∧
    (Flag p "range_filter/enabled" false → g.range = none) ∧
    (Flag p "statistical_outlier_removal/enabled" false → g.outliers = none) ∧
    (Flag p "random_sample_filter/enabled" false → g.sample = none) := by
  obtain ⟨h1, h2, h3, h4, h5⟩ := filter_eq_ok (filter_exists h hl hg)
  refine ⟨fun hf => ?_, fun hf => ?_, fun hf => ?_, fun hf => ?_, fun hf => ?_⟩
  · simpa [voxelParams, bool_flag hf] using h1.symm
  · simpa [bodyParams, bool_flag hf] using h3.symm
  · simpa [rangeParams, bool_flag hf] using h4.symm
  · simpa [outlierParams, bool_flag hf] using h5.symm
  · simpa [sampleParams, bool_flag hf] using h2.symm

/-- With all filters disabled no filter is made. -/
theorem C125_no_filter (h : single cv frames p = .ok s) (hl : s.lidar = some (f, b)) (hf : Flags p [
    ("voxel_grid_filter/enabled", false), ("body_filter/enabled", false), ("range_filter/enabled", false),
    ("statistical_outlier_removal/enabled", false), ("random_sample_filter/enabled", false)]) : f.filter = none := by
  have hf := flags hf
  simp only [List.forall_mem_cons] at hf
  obtain ⟨-, -, -, hs, -⟩ := single_eq_ok.mp h
  rw [hl] at hs
  obtain ⟨-, hx, -⟩ := lidar_eq_ok hs
  simpa [filterIfEnabled, hf] using hx.symm

/-! ### Format, normals, mapping -/

/-- The input format. -/
theorem C125_formatter (h : single cv frames p = .ok s) {w : String} {t r : Bool} {x : ℚ} (hw : Word p "pointcloud_type" w)
    (hf : Flags p [("time_field_filter/enabled", t), ("first_pointcloud_removal/enabled", r)])
    (hx : Number p "time_field_filter/max" x) :
    (w = "OUSTER" → s.formatter.sensor = .ouster) ∧ (w = "CUSTOM" → s.formatter.sensor = .custom) ∧
      s.formatter.maxTime = (if t then some x else none) ∧ s.formatter.removeFirst = r := by
  have hf := flags hf
  simp only [List.forall_mem_cons] at hf
  obtain ⟨-, -, hs, -⟩ := single_eq_ok.mp h
  obtain ⟨k, hk, hs⟩ := bind_eq_ok hs
  rw [str_word hw] at hk
  simp only [hf, double_number hx, Outcome.ok.injEq] at hs
  rw [← hs]
  refine ⟨?_, ?_, rfl, rfl⟩ <;> rintro rfl <;> simpa [Lidar.toSensorType] using hk.symm

/-- The estimation of normals. -/
theorem C125_normals (h : single cv frames p = .ok s) (hl : s.lidar = some (f, b)) {w : String} {n : Nat} {k : Int} {x y z r : ℚ}
    (hn : n < 2 ^ 32) (hw : Word p "normal_estimation/method" w)
    (hi : Wholes p [("normal_estimation/threads", n), ("normal_estimation/k", k)])
    (hd : Numbers p [("normal_estimation/viewpoint/x", x), ("normal_estimation/viewpoint/y", y),
      ("normal_estimation/viewpoint/z", z), ("normal_estimation/radius", r)]) :
    f.normals.threads = n ∧ f.normals.viewpoint = (x, y, z) ∧ (w = "knn" → f.normals.neighbours = .nearest k) ∧
      (w = "radius" → f.normals.neighbours = .within r) := by
  have hi := wholes hi
  have hd := numbers hd
  simp only [List.forall_mem_cons] at hi hd
  obtain ⟨-, -, -, hs, -⟩ := single_eq_ok.mp h
  rw [hl] at hs
  obtain ⟨-, -, hx, -⟩ := lidar_eq_ok hs
  obtain ⟨m, hm, hx⟩ := bind_eq_ok hx
  simp only [hi, hd, Outcome.ok.injEq] at hx
  simp only [neighbourParams, str_word hw, hi, hd] at hm
  rw [← hx]
  have e : wrapUnsigned n = n := by unfold wrapUnsigned; omega
  refine ⟨e, rfl, ?_, ?_⟩ <;> rintro rfl <;> simpa using hm.symm

/-- Mapping. -/
theorem C125_mapping (h : single cv frames p = .ok s) (hl : s.lidar = some (f, b)) {w m : String} {n k : Nat} {d r leaf : ℚ}
    {l g : Bool} (hk : k < 2 ^ 32) (hw : Words p [("map_frame_id", w), ("mapping/frame_extraction_method", m)])
    (hi : Whole p "mapping/frame_extraction_number" n)
    (hb : Flags p [("mapping/voxel_grid_filter/enabled_local", l), ("mapping/voxel_grid_filter/enabled_global", g)])
    (hd : Numbers p [("mapping/distance_threshold", d), ("mapping/rotation_threshold", r),
      ("mapping/voxel_grid_filter/leaf_size", leaf), ("mapping/voxel_grid_filter/minimum_points_number_per_voxel", k)]) :
    b.mapping.mapFrame = w ∧ b.mapping.distanceThreshold = d ∧ b.mapping.rotationThreshold = r ∧ b.mapping.number = n ∧
      b.mapping.voxelLocal = l ∧ b.mapping.voxelGlobal = g ∧ b.mapping.voxel = ⟨leaf, k⟩ ∧
      (m = "NEARBY" → b.mapping.method = .nearby) ∧ (m = "PAST" → b.mapping.method = .past) := by
  have hw := words hw
  have hb := flags hb
  have hd := numbers hd
  simp only [List.forall_mem_cons] at hw hb hd
  obtain ⟨-, -, -, hs, -⟩ := single_eq_ok.mp h
  rw [hl] at hs
  obtain ⟨-, -, -, hx, -⟩ := lidar_eq_ok hs
  simp only [mapping, hw, hb, hd, int_whole hi, toUnsigned_natCast hk] at hx
  split at hx
  · cases hx
  · obtain ⟨a, ha, hx⟩ := bind_eq_ok hx
    simp only [Outcome.bind_ok, Outcome.ok.injEq] at hx
    rw [← hx]
    refine ⟨rfl, rfl, rfl, by simp, rfl, rfl, rfl, ?_, ?_⟩ <;> rintro rfl <;> simpa [Mapping.toMethod] using ha.symm

/-! ### Registration -/

/-- The method `m` is the scan-to-scan method and `pre` is `s2s/`, or it is the scan-to-map method and `pre` is `s2m/`. -/
def MethodOf (b : LidarBack) (pre : String) (m : Method) : Prop :=
  (pre = "s2s/" ∧ b.registration.s2s = m) ∨ (pre = "s2m/" ∧ b.registration.s2m = some m)

theorem methodOf_params (h : single cv frames p = .ok s) (hl : s.lidar = some (f, b)) {pre : String} {m : Method}
    (hm : MethodOf b pre m) : methodParams p pre = .ok m := by
  obtain ⟨-, -, -, hs, -⟩ := single_eq_ok.mp h
  rw [hl] at hs
  obtain ⟨-, -, -, -, hr⟩ := lidar_eq_ok hs
  obtain ⟨h1, h2, -⟩ := registration_eq_ok hr
  rcases hm with ⟨rfl, rfl⟩ | ⟨rfl, hm⟩
  · exact h1
  · rw [hm] at h2
    exact s2m_eq_ok h2

/-- The options that all methods have. -/
def BaseSet (p : Server) (pre : String) (q : Base) : Prop :=
  Wholes p [(pre ++ "base/maximum_iterations", q.maximumIterations), (pre ++ "base/ransac_iterations", q.ransacIterations)] ∧
  Numbers p [(pre ++ "base/ransac_outlier_rejection_threshold", q.ransacOutlierThreshold),
    (pre ++ "base/max_correspondence_distance", q.maxCorrespondenceDistance),
    (pre ++ "base/transformation_epsilon", q.transformationEpsilon),
    (pre ++ "base/transformation_rotation_epsilon", q.transformationRotationEpsilon),
    (pre ++ "base/euclidean_fitness_epsilon", q.euclideanFitnessEpsilon)]

theorem base_eq {pre : String} {q : Base} (hq : BaseSet p pre q) : baseParams p pre = q := by
  have h1 := wholes hq.1
  have h2 := numbers hq.2
  simp only [List.forall_mem_cons] at h1 h2
  simp only [baseParams, h1, h2]

/-- Scan-to-scan and scan-to-map registration by ICP, generalized ICP and normal distributions. -/
theorem C125_pcl_methods (h : single cv frames p = .ok s) (hl : s.lidar = some (f, b)) {pre w : String} {m : Method}
    (hm : MethodOf b pre m) (hw : Word p (pre ++ "method") w) {q : Base} (hq : BaseSet p pre q) {r : Bool} {k n : Int}
    {e x y z : ℚ} (hr : Flag p (pre ++ "icp/use_reciprocal_correspondences") r)
    (hi : Wholes p [(pre ++ "gicp/correspondence_randomness", k), (pre ++ "gicp/maximum_optimizer_iterations", n)])
    (hd : Numbers p [(pre ++ "gicp/rotation_epsilon", e), (pre ++ "ndt/resolution", x), (pre ++ "ndt/step_size", y),
      (pre ++ "ndt/outlier_ratio", z)]) :
    (w = "icp" → m = .icp q r) ∧ (w = "gicp" → m = .gicp q r e k n) ∧ (w = "ndt" → m = .ndt q x y z) := by
  have hp := methodOf_params h hl hm
  have hi := wholes hi
  have hd := numbers hd
  have h1 := wholes hq.1
  simp only [List.forall_mem_cons] at hi hd h1
  simp only [methodParams, str_word hw, base_eq hq, bool_flag hr, hi, hd, h1] at hp
  refine ⟨?_, ?_, ?_⟩ <;> rintro rfl <;> simpa [Lidar.toRegMethod, Outcome.bind_ok] using hp.symm

/-- Registration by fast_gicp. -/
theorem C125_fast_gicp_methods (h : single cv frames p = .ok s) (hl : s.lidar = some (f, b)) {pre w reg acc nb : String} {m : Method}
    (hm : MethodOf b pre m) (hw : Words p [(pre ++ "method", w), (pre ++ "fast_gicp/regularization_method", reg),
      (pre ++ "fast_vgicp/voxel_accumulation_mode", acc), (pre ++ "fast_vgicp/neighbor_search_method", nb)])
    {q : Base} (hq : BaseSet p pre q) {dbg : Bool} {t k : Int} {e l x : ℚ} (hb : Flag p (pre ++ "lsq/debug_print") dbg)
    (hi : Wholes p [(pre ++ "fast_gicp/num_threads", t), (pre ++ "fast_gicp/correspondence_randomness", k)])
    (hd : Numbers p [(pre ++ "lsq/rotation_epsilon", e), (pre ++ "lsq/initial_lambda_factor", l),
      (pre ++ "fast_vgicp/resolution", x)])
    {rg : Regularization} (hrg : (reg, rg) ∈ [("NONE", .none), ("MIN_EIG", .minEig), ("NORMALIZED_MIN_EIG", .normalizedMinEig),
      ("PLANE", .plane), ("FROBENIUS", Regularization.frobenius)])
    {am : Accumulation} (ham : (acc, am) ∈ [("ADDITIVE", .additive), ("ADDITIVE_WEIGHTED", .additiveWeighted),
      ("MULTIPLICATIVE", Accumulation.multiplicative)])
    {ns : NeighborSearch} (hns : (nb, ns) ∈ [("DIRECT27", .direct27), ("DIRECT7", .direct7), ("DIRECT1", .direct1),
      ("DIRECT_RADIUS", NeighborSearch.directRadius)]) :
    (w = "fast_gicp" → m = .fastGicp ⟨q, e, l, dbg, t, k, rg⟩) ∧
      (w = "fast_gicp_st" → m = .fastGicpSt ⟨q, e, l, dbg, 1, k, rg⟩) ∧
      (w = "fast_vgicp" → m = .fastVgicp ⟨q, e, l, dbg, t, k, rg⟩ x am ns) := by
  have hp := methodOf_params h hl hm
  have hw := words hw
  have hi := wholes hi
  have hd := numbers hd
  simp only [List.forall_mem_cons] at hw hi hd
  have e1 : toRegularization reg = .ok rg := by
    simp only [List.mem_cons, List.not_mem_nil, or_false, Prod.mk.injEq] at hrg
    rcases hrg with ⟨rfl, rfl⟩ | ⟨rfl, rfl⟩ | ⟨rfl, rfl⟩ | ⟨rfl, rfl⟩ | ⟨rfl, rfl⟩ <;> rfl
  have e2 : toAccumulation acc = .ok am := by
    simp only [List.mem_cons, List.not_mem_nil, or_false, Prod.mk.injEq] at ham
    rcases ham with ⟨rfl, rfl⟩ | ⟨rfl, rfl⟩ | ⟨rfl, rfl⟩ <;> rfl
  have e3 : toNeighborSearch nb = .ok ns := by
    simp only [List.mem_cons, List.not_mem_nil, or_false, Prod.mk.injEq] at hns
    rcases hns with ⟨rfl, rfl⟩ | ⟨rfl, rfl⟩ | ⟨rfl, rfl⟩ | ⟨rfl, rfl⟩ <;> rfl
  simp only [methodParams, fastVgicpParams, fastGicpParams, base_eq hq, bool_flag hb, hw, hi, hd, e1, e2, e3] at hp
  refine ⟨?_, ?_, ?_⟩ <;> rintro rfl <;> simpa [Lidar.toRegMethod, Outcome.bind_ok] using hp.symm

/-- Scan-to-map registration is made exactly if enabled; the flags for debugging. -/
theorem C125_registration_flags (h : single cv frames p = .ok s) (hl : s.lidar = some (f, b)) {e c q a : Bool}
    (hf : Flags p [("s2m/enabled", e), ("debug/registration/check_normals", c), ("debug/registration/publish_clouds", q),
      ("debug/registration/publish_clouds_alt", a)]) :
    b.registration.s2m.isSome = e ∧ b.registration.checkNormals = c ∧ b.registration.publishClouds = q ∧
      b.registration.publishCloudsAlt = (q && a) := by
  have hf := flags hf
  simp only [List.forall_mem_cons] at hf
  obtain ⟨-, -, -, hs, -⟩ := single_eq_ok.mp h
  rw [hl] at hs
  obtain ⟨-, -, -, -, hr⟩ := lidar_eq_ok hs
  obtain ⟨-, h2, -, -, -, h3, h4, h5⟩ := registration_eq_ok hr
  simp only [hf] at h3 h4 h5
  refine ⟨?_, h3, h4, h5⟩
  simp only [s2mParams, hf] at h2
  cases e
  · simp only [Bool.false_eq_true, if_false, Outcome.ok.injEq] at h2
    rw [← h2]; rfl
  · simp only [if_true] at h2
    obtain ⟨a, -, h2⟩ := bind_eq_ok h2
    injection h2 with h2
    rw [← h2]; rfl

/-- The covariance of registrations: which function is called with which variances, for every pair of methods. The model is looked
up by name. -/
theorem C125_registration_covariance (h : single cv frames p = .ok s) (hl : s.lidar = some (f, b)) {w q m : String}
    (hw : Words p [("registration_covariance/method", w), ("registration_covariance/point_covariance/method", q),
      ("registration_covariance/model", m)]) (hv : Flag p "voxel_grid_filter/enabled" true)
    {r t c g a leaf : ℚ} (hd : Numbers p [("registration_covariance/constant/rotation", r),
      ("registration_covariance/constant/translation", t), ("registration_covariance/point_covariance/constant", c),
      ("registration_covariance/point_covariance/range_noise", g),
      ("registration_covariance/point_covariance/range_bias_noise", a), ("voxel_grid_filter/leaf_size", leaf)])
    {model : Lidar.CovModel} (hmodel : (m, model) ∈ [("POINT_TO_POINT_LINEARISED", .pointToPointLinearised),
      ("POINT_TO_POINT_NONLINEAR", .pointToPointNonlinear), ("POINT_TO_PLANE_LINEARISED", .pointToPlaneLinearised),
      ("POINT_TO_PLANE_NONLINEAR", Lidar.CovModel.pointToPlaneNonlinear)])
    {call : Outcome Lidar.CovCall} (hcall : call = Lidar.covarianceCall (regConfig p b.registration.unit) b.registration.members) :
    (w = "CONSTANT" → call = .ok (.constant (r ^ 2) (t ^ 2))) ∧
    (w = "CENSI" → q = "CONSTANT" → call = .ok (.iid (.censiIid model) (c ^ 2))) ∧
    (w = "CENSI" → q = "VOXEL_SIZE" → call = .ok (.iid (.censiIid model) (leaf ^ 2))) ∧
    (w = "CENSI" → q = "RANGE" → call = .ok (.range (.censiRange model) (g ^ 2))) ∧
    (w = "CENSI" → q = "RANGE_BIAS" → call = .ok (.rangeBias (.censiRangeBias model) (g ^ 2) (a ^ 2))) ∧
    (w = "LLS" → q = "CONSTANT" → call = .ok (.iid (.llsIid model) (c ^ 2))) ∧
    (w = "LLS" → q = "VOXEL_SIZE" → call = .ok (.iid (.llsIid model) (leaf ^ 2))) := by
  subst hcall
  have hw := words hw
  have hd := numbers hd
  simp only [List.forall_mem_cons] at hw hd
  obtain ⟨-, -, -, hs, -⟩ := single_eq_ok.mp h
  rw [hl] at hs
  obtain ⟨hu, -, -, -, hr⟩ := lidar_eq_ok hs
  obtain ⟨-, -, hc, -, hunit, -⟩ := registration_eq_ok hr
  obtain ⟨s2s, -, hc⟩ := bind_eq_ok hc
  obtain ⟨s2m, -, hc⟩ := bind_eq_ok hc
  have hm : Lidar.toCovModel m = .ok model := by
    simp only [List.mem_cons, List.not_mem_nil, or_false, Prod.mk.injEq] at hmodel
    rcases hmodel with ⟨rfl, rfl⟩ | ⟨rfl, rfl⟩ | ⟨rfl, rfl⟩ | ⟨rfl, rfl⟩ <;> rfl
  rw [hunit]
  simp only [unitVectors, Lidar.requiresUnitVectorsNamed, hw] at hu
  simp only [regConfig, hw, hd, bool_flag hv] at hc ⊢
  refine ⟨?_, ?_, ?_, ?_, ?_, ?_, ?_⟩ <;> intro hw' <;> subst hw'
  · simp only [Lidar.toCovMethod, if_true, Outcome.bind_ok, Outcome.ok.injEq] at hc
    rw [← hc]
    simp [Lidar.covarianceCall, Lidar.initialised, Outcome.bind_ok, pow_two]
  all_goals
    intro hq
    subst hq
    simp [Lidar.toCovMethod, Lidar.toPointMethod, Lidar.requiresUnitVectors, Outcome.bind_ok] at hu
    simp [Lidar.toCovMethod, Lidar.configureEstimate, hm, Lidar.createBindings, Lidar.toPointMethod, Lidar.setPointVariance,
      Lidar.setRange, Outcome.bind_ok] at hc
    try (split at hc <;> [cases hc; skip])
    try (split at hc <;> [cases hc; skip])
    try simp only [Outcome.ok.injEq] at hc
    rw [← hc]
    simp [Lidar.covarianceCall, Lidar.covarianceCallOf, Lidar.pointee, Lidar.initialised, Lidar.onlyUnit, Outcome.bind_ok, hu]

end Params

end Serpent
