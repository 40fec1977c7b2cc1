import Verif.Spec.DataSets
import Verif.Lemmas.Parameters
import Verif.Props.ParametersAgree
import Verif.Props.MotionState

/-!
# C148: the configurations of the data sets
-/

namespace Serpent

namespace Params

set_option Elab.async false

variable {cv : OpenCv} {frames : String → Bool} {p : Server} {s : Single} {t : StereoTracking}

theorem bool_set_other {k k' : String} {v : Value} (h : k' ≠ k) (d : Bool) : (p.set k v).bool k' d = p.bool k' d := by
  unfold Server.bool Server.set
  rw [if_neg h]

theorem str_set_other {k k' : String} {v : Value} (h : k' ≠ k) (d : String) : (p.set k v).str k' d = p.str k' d := by
  unfold Server.str Server.set
  rw [if_neg h]

theorem int_set (k : String) (n d : Int) : (p.set k (.int n)).int k d = n := by
  unfold Server.int Server.set
  rw [if_pos rfl]

theorem same_threads (l : List Read) (hl : (l.all fun r => decide (r.name ≠ "threads")) = true) (v : Value) :
    ∀ r ∈ l, r.Same (p.set "threads" v) p := by
  intro r hr
  exact same_set_other r (by simpa using List.all_eq_true.1 hl r hr)

/-- The number of threads has no influence on the modules, and the version of OpenCV has none if no features are tracked. -/
theorem single_threads (h : single cv frames p = .ok s) (hs : s.stereo = none) (cv' : OpenCv) {n : Int} (hn : 1 ≤ n) :
    single cv' frames (p.set "threads" (.int n)) = .ok { s with threads := n.toNat } := by
  obtain ⟨h1, h2, h3, h4, h5, -⟩ := single_eq_ok.1 h
  rw [single_eq_ok]
  have e1 := filter_same (same_threads (p := p) filterReads (by decide +kernel) (.int n))
  have e2 := formatter_same (same_threads (p := p) formatterReads (by decide +kernel) (.int n))
  have e3 := normals_same (same_threads (p := p) normalsReads (by decide +kernel) (.int n))
  have e4 := mapping_same (same_threads (p := p) mappingReads (by decide +kernel) (.int n))
  have e7 : ∀ u, registration frames (p.set "threads" (.int n)) u = registration frames p u := fun u => registration_same
    (same_threads (p := p) (methodReads "s2s/") (by decide +kernel) (.int n))
    (same_threads (p := p) (methodReads "s2m/") (by decide +kernel) (.int n))
    (same_threads (p := p) registrationReads (by decide +kernel) (.int n))
  have e9 := frontend_same (frames := frames) (same_threads (p := p) frontendReads (by decide +kernel) (.int n))
  have e10 := backend_same (frames := frames) (same_threads (p := p) backendReads (by decide +kernel) (.int n))
  refine ⟨e9.trans h1, e10.trans h2, e2.trans h3, ?_, ?_, ?_⟩
  · rw [← h4]
    simp only [singleLidar, filterIfEnabled, unitVectors, e1, e3, e4, e7,
      bool_set_other (p := p) (k := "threads") (v := .int n) (show "optimisation/factors/registration" ≠ "threads" by decide),
      bool_set_other (p := p) (k := "threads") (v := .int n) (show "voxel_grid_filter/enabled" ≠ "threads" by decide),
      bool_set_other (p := p) (k := "threads") (v := .int n) (show "body_filter/enabled" ≠ "threads" by decide),
      bool_set_other (p := p) (k := "threads") (v := .int n) (show "range_filter/enabled" ≠ "threads" by decide),
      bool_set_other (p := p) (k := "threads") (v := .int n) (show "statistical_outlier_removal/enabled" ≠ "threads" by decide),
      bool_set_other (p := p) (k := "threads") (v := .int n) (show "random_sample_filter/enabled" ≠ "threads" by decide),
      str_set_other (p := p) (k := "threads") (v := .int n) (show "registration_covariance/method" ≠ "threads" by decide),
      str_set_other (p := p) (k := "threads") (v := .int n)
        (show "registration_covariance/point_covariance/method" ≠ "threads" by decide)]
  · have hoff : p.bool "optimisation/factors/stereo" true = false := by
      by_contra hc
      rw [Bool.not_eq_false] at hc
      unfold stereoIfEnabled at h5
      rw [if_pos hc, hs] at h5
      obtain ⟨t, -, ht⟩ := bind_eq_ok h5
      cases ht
    show stereoIfEnabled cv' _ = .ok s.stereo
    unfold stereoIfEnabled
    rw [bool_set_other (by decide), hoff, hs]
    rfl
  · unfold threadCount
    rw [int_set, if_neg (by omega)]

theorem stereo_threads (h : stereo cv p = .ok t) (ht : p.str "stereo_tracking/detector/type" "ORB" ≠ "SIFT") (cv' : OpenCv)
    {n : Int} (hn : 1 ≤ n) : stereoProcess cv' (p.set "threads" (.int n)) = .ok (t, n.toNat) := by
  have e8 := stereo_same (cv := cv') (same_threads (p := p) stereoReads (by decide +kernel) (.int n))
  have e : stereo cv' p = stereo cv p := by
    unfold stereo detectorParams
    simp only [if_neg ht]
  unfold stereoProcess threadCount
  rw [e8, e, h, int_set, if_neg (by omega)]
  rfl

/-- The parameter server without the number of threads. -/
def DataSet.base (d : DataSet) (mission : List (String × Value)) : Server :=
  fun k => ((mission ++ d.files).find? fun e => e.1 = k).map Prod.snd

/-- The check of one mission. -/
def missionChecked (d : DataSet) (m : List (String × Value)) : Bool :=
  (match single ⟨4, 4⟩ d.hasFrame (d.base m) with
    | .ok s => decide (s.stereo = none) && s.lidar.isSome && decide (s.frontend.stereo = false ∧ s.frontend.barometer = false ∧
        s.backend.imu = true ∧ s.backend.registration = true ∧ 0 < s.frontend.preintegration.gravity ∧
        0 < s.frontend.preintegration.integration) &&
        (match s.frontend.imuOverwrite with
          | some (a, g) => decide (0 < a ∧ 0 < g)
          | none => false)
    | _ => false) &&
  (match stereo ⟨4, 4⟩ (d.base m) with | .ok _ => true | _ => false) &&
  decide ((d.base m).str "stereo_tracking/detector/type" "ORB" ≠ "SIFT")

theorem snowboard_checked : snowboard.missions.all (fun m => missionChecked snowboard m.2) = true := by decide +kernel

theorem ue4_checked : ue4.missions.all (fun m => missionChecked ue4 m.2) = true := by decide +kernel

theorem simulator_checked : simulator.missions.all (fun m => missionChecked simulator m.2) = true := by decide +kernel

theorem missions_checked : ∀ d ∈ dataSets, ∀ m ∈ d.missions, missionChecked d m.2 = true := by
  intro d hd m hm
  simp only [dataSets, List.mem_cons, List.not_mem_nil, or_false] at hd
  rcases hd with rfl | rfl | rfl
  · exact List.all_eq_true.1 snowboard_checked m hm
  · exact List.all_eq_true.1 ue4_checked m hm
  · exact List.all_eq_true.1 simulator_checked m hm

theorem mission_ok {d : DataSet} {m : List (String × Value)} (h : missionChecked d m = true) :
    ∃ s t a g, single ⟨4, 4⟩ d.hasFrame (d.base m) = .ok s ∧ s.stereo = none ∧ s.lidar.isSome = true ∧ s.frontend.stereo = false ∧
      s.frontend.barometer = false ∧ s.backend.imu = true ∧ s.backend.registration = true ∧
      0 < s.frontend.preintegration.gravity ∧ 0 < s.frontend.preintegration.integration ∧ s.frontend.imuOverwrite = some (a, g) ∧
      0 < a ∧ 0 < g ∧ stereo ⟨4, 4⟩ (d.base m) = .ok t ∧ (d.base m).str "stereo_tracking/detector/type" "ORB" ≠ "SIFT" := by
  unfold missionChecked at h
  rw [Bool.and_eq_true, Bool.and_eq_true] at h
  obtain ⟨⟨h1, h2⟩, h3⟩ := h
  split at h1
  · rename_i s hs
    rw [Bool.and_eq_true, Bool.and_eq_true, Bool.and_eq_true] at h1
    obtain ⟨⟨⟨i1, i2⟩, i3⟩, i4⟩ := h1
    split at i4
    · rename_i a g ha
      split at h2
      · rename_i t ht
        obtain ⟨j1, j2, j3, j4, j5, j6⟩ := of_decide_eq_true i3
        obtain ⟨k1, k2⟩ := of_decide_eq_true i4
        exact ⟨s, t, a, g, hs, of_decide_eq_true i1, i2, j1, j2, j3, j4, j5, j6, ha, k1, k2, ht, of_decide_eq_true h3⟩
      · cases h2
    · cases i4
  · cases h1

/-- **C148.** Every mission of every data set starts: for each version of OpenCV and each number of threads that is at least one, the
node, the two nodes of the split version and the node of the stereo pipeline are constructed without an exception. What they are
depends on nothing else: pointclouds are registered, the IMU is used, stereo features and the barometer are not, and no other option
changes with the number of threads. -/
theorem C148_starts (d : DataSet) (hd : d ∈ dataSets) (m : String × List (String × Value)) (hm : m ∈ d.missions) :
    ∃ (s : Single) (t : StereoTracking), s.lidar.isSome = true ∧ s.stereo = none ∧ s.frontend.stereo = false ∧
      s.frontend.barometer = false ∧ s.backend.imu = true ∧ s.backend.registration = true ∧
      ∀ (cv : OpenCv) (n : Int), 1 ≤ n →
        single cv d.hasFrame (d.server m.2 n) = .ok { s with threads := n.toNat } ∧
        frontProcess d.hasFrame (d.server m.2 n) = .ok ⟨s.frontend, s.formatter, s.lidar.map Prod.fst, n.toNat⟩ ∧
        backProcess cv d.hasFrame (d.server m.2 n) = .ok ⟨s.backend, s.lidar.map Prod.snd, s.stereo, n.toNat⟩ ∧
        stereoProcess cv (d.server m.2 n) = .ok (t, n.toNat) := by
  obtain ⟨s, t, a, g, h1, h2, h3, h4, h5, h6, h7, -, -, -, -, -, ht, hsift⟩ := mission_ok (missions_checked d hd m hm)
  refine ⟨s, t, h3, h2, h4, h5, h6, h7, fun cv n hn => ?_⟩
  have hs := single_threads h1 h2 cv hn
  obtain ⟨hf, hb⟩ := C128_split_same hs
  exact ⟨hs, hf, hb, stereo_threads ht hsift cv hn⟩

/-- **C148.** A data set with no thread does not start. -/
theorem C148_threads (d : DataSet) (m : List (String × Value)) (cv : OpenCv) (n : Int) (hn : n < 1) (s : Single) :
    single cv d.hasFrame (d.server m n) ≠ .ok s := by
  intro h
  obtain ⟨-, -, -, -, -, h⟩ := single_eq_ok.1 h
  unfold threadCount DataSet.server at h
  rw [int_set, if_pos (by omega)] at h
  cases h

open Motion in
/-- **C148.** In every mission of every data set the noise of the IMU is overwritten with positive values, so that no measurement of
the IMU, whatever its covariances, stops the integration in the front end or the back end. -/
theorem C148_imu (d : DataSet) (hd : d ∈ dataSets) (m : String × List (String × Value)) (hm : m ∈ d.missions) :
    ∃ (s : Single) (a g : ℚ), (∀ (cv : OpenCv) (n : Int), 1 ≤ n →
        single cv d.hasFrame (d.server m.2 n) = .ok { s with threads := n.toNat }) ∧
      s.frontend.imuOverwrite = some (a, g) ∧ s.backend.preintegration = s.frontend.preintegration ∧
      ∀ (acc gyro : Matrix (Fin 3) (Fin 3) ℝ) (imu : EigenRos.Imu),
        (updateParams (newParams (some (s.frontend.preintegration.gravity : ℝ)) (some (s.frontend.preintegration.integration : ℝ))
          acc gyro) (received (some (some (a : ℝ), some (g : ℝ))) imu).linearAccelerationCov
          (received (some (some (a : ℝ), some (g : ℝ))) imu).angularVelocityCov).1 = .ok () := by
  obtain ⟨s, t, a, g, h1, h2, -, -, -, -, -, h8, h9, h10, h11, h12, -⟩ := mission_ok (missions_checked d hd m hm)
  refine ⟨s, a, g, fun cv n hn => single_threads h1 h2 cv hn, h10, (C128_preintegration h1).symm, fun acc gyro imu => ?_⟩
  rw [C140_overwrite]
  refine ⟨?_, ?_, ?_, ?_⟩ <;> simp <;> intro h <;> simp_all

/-! ### The options of the files -/

/-- An option of a file is never read (`0`), or the `i`-th call reads it and takes its value. -/
def usedAt (e : String × Value) (i : Nat) : Bool :=
  match i with
  | 0 => decide (e.1 ∈ neverRead)
  | i + 1 => match reads[i]? with
    | some r => decide (r.name = e.1) && r.takes e.2
    | none => false

/-- All options of a file. -/
def usedAll : List (String × Value) → List Nat → Bool
  | [], _ => true
  | e :: es, i :: is => usedAt e i && usedAll es is
  | _ :: _, [] => false

/-- Where the options of the files are read; the files of the three data sets have the same options in the same order. -/
def readers : List Nat := [
  29, 27, 28, 2, 8, 9, 10, 11, 12, 13, 14, 15, 16, 17, 18, 19, 5, 24, 25, 3, 20, 21, 4, 0, 0, 1, 6, 7, 153, 156, 157, 154, 155,
  26, 30, 31, 32, 33, 34, 35, 36, 182, 183, 187, 240, 241, 239, 181, 172, 173, 174, 175, 170, 176, 177, 236, 179, 180, 166, 167,
  202, 203, 204, 205, 206, 207, 208, 210, 211, 212, 209, 213, 178, 191, 192, 169, 237, 238, 97, 100, 98, 99, 101, 102, 106, 105,
  70, 46, 47, 48, 49, 50, 51, 52, 53, 54, 55, 56, 0, 0, 57, 58, 59, 60, 61, 62, 63, 64, 65, 67, 68, 69, 96, 95, 71, 72, 73, 74,
  75, 76, 77, 78, 79, 80, 81, 0, 0, 82, 83, 84, 85, 86, 87, 88, 89, 90, 92, 93, 94, 37, 41, 40, 38, 39, 42, 43, 44, 45, 215,
  216, 217, 218, 219, 220, 221, 222, 223, 224, 225, 226, 227, 228, 229, 230, 231, 232, 233, 234, 235, 214, 168, 158, 136, 110,
  111, 112, 113, 114, 115, 116, 117, 118, 119, 120, 121, 122, 123, 124, 125, 126, 127, 128, 129, 0, 131, 132, 137, 162, 163,
  164, 138, 0, 0, 0, 0, 0, 0, 0, 148, 146, 147, 152, 149, 150, 151, 107, 108, 109, 159, 133, 134, 135, 160, 161, 196, 243, 242,
  244, 245]

/-- The options of the default files are, in this order, options of the files or options of the mission. -/
def covered (m : List (String × Value)) : List (String × Value) → List (String × Value) → Bool
  | _, [] => true
  | [], e :: rest => (m.any fun x => decide (x.1 = e.1)) && covered m [] rest
  | x :: xs, e :: rest => if x.1 = e.1 then covered m xs rest else (m.any fun y => decide (y.1 = e.1)) && covered m (x :: xs) rest

/-- The check of the options of a data set. -/
def optionsChecked (d : DataSet) : Bool :=
  usedAll d.files readers && d.missions.all fun m => usedAll m.2 [171, 184, 185, 186, 188, 189, 190] && covered m.2 d.files shipped

theorem snowboard_options : optionsChecked snowboard = true := by decide +kernel

theorem ue4_options : optionsChecked ue4 = true := by decide +kernel

theorem simulator_options : optionsChecked simulator = true := by decide +kernel

theorem usedAll_spec : ∀ (l : List (String × Value)) (is : List Nat), usedAll l is = true →
    ∀ e ∈ l, e.1 ∉ neverRead → ∃ r ∈ reads, r.name = e.1 ∧ r.takes e.2 = true
  | [], _, _, _, he, _ => absurd he (by simp)
  | _ :: _, [], h, _, _, _ => by cases h
  | x :: xs, i :: is, h, e, he, hn => by
    unfold usedAll at h
    rw [Bool.and_eq_true] at h
    rcases List.mem_cons.1 he with rfl | he
    · have hu := h.1
      unfold usedAt at hu
      split at hu
      · exact absurd (of_decide_eq_true hu) hn
      · split at hu
        · rename_i r hr
          rw [Bool.and_eq_true, decide_eq_true_eq] at hu
          exact ⟨r, List.mem_of_getElem? hr, hu⟩
        · cases hu
    · exact usedAll_spec xs is h.2 e he hn

theorem covered_spec (m : List (String × Value)) : ∀ files l : List (String × Value), covered m files l = true →
    ∀ e ∈ l, ∃ x ∈ m ++ files, x.1 = e.1
  | _, [], _, _, he => absurd he (by simp)
  | [], y :: rest, h, e, he => by
    unfold covered at h
    rw [Bool.and_eq_true, List.any_eq_true] at h
    rcases List.mem_cons.1 he with rfl | he
    · obtain ⟨⟨x, hx, k⟩, -⟩ := h
      exact ⟨x, List.mem_append_left _ hx, of_decide_eq_true k⟩
    · exact covered_spec m [] rest h.2 e he
  | x :: xs, y :: rest, h, e, he => by
    unfold covered at h
    split at h
    · rename_i hxy
      rcases List.mem_cons.1 he with rfl | he
      · exact ⟨x, List.mem_append_right _ List.mem_cons_self, hxy⟩
      · obtain ⟨z, hz, k⟩ := covered_spec m xs rest h e he
        exact ⟨z, (List.mem_append.1 hz).elim (fun h => List.mem_append_left _ h) fun h => List.mem_append_right _ (List.mem_cons_of_mem _ h), k⟩
    · rw [Bool.and_eq_true, List.any_eq_true] at h
      rcases List.mem_cons.1 he with rfl | he
      · obtain ⟨⟨z, hz, k⟩, -⟩ := h
        exact ⟨z, List.mem_append_left _ hz, of_decide_eq_true k⟩
      · exact covered_spec m (x :: xs) rest h.2 e he

/-- **C148.** In every mission of every data set, every option of the files is read, with a type that its value has (or it is one of
the fourteen options that nothing reads, `C125_fails_options_without_effect`), and every option of the default files is set: none is
misspelt, none of the wrong type, none forgotten. -/
theorem C148_options (d : DataSet) (hd : d ∈ dataSets) (m : String × List (String × Value)) (hm : m ∈ d.missions) :
    (∀ e ∈ m.2 ++ d.files, e.1 ∉ neverRead → ∃ r ∈ reads, r.name = e.1 ∧ r.takes e.2 = true) ∧
    (∀ e ∈ shipped, ∀ n, ∃ v, d.server m.2 n e.1 = some v) := by
  have h : optionsChecked d = true := by
    simp only [dataSets, List.mem_cons, List.not_mem_nil, or_false] at hd
    rcases hd with rfl | rfl | rfl
    exacts [snowboard_options, ue4_options, simulator_options]
  unfold optionsChecked at h
  rw [Bool.and_eq_true, List.all_eq_true] at h
  obtain ⟨h1, h2⟩ := h
  have h2 := h2 m hm
  rw [Bool.and_eq_true] at h2
  obtain ⟨h2, h3⟩ := h2
  refine ⟨fun e he hn => ?_, fun e he n => ?_⟩
  · exact (List.mem_append.1 he).elim (fun k => usedAll_spec _ _ h2 e k hn) fun k => usedAll_spec _ _ h1 e k hn
  · obtain ⟨x, hx, he⟩ := covered_spec _ _ _ h3 e he
    unfold DataSet.server Server.set
    split
    · exact ⟨_, rfl⟩
    · obtain ⟨y, hy⟩ := Option.isSome_iff_exists.1 (List.find?_isSome (p := fun x => decide (x.1 = e.1)).2 ⟨x, hx, decide_eq_true he⟩)
      exact ⟨y.2, by dsimp only; rw [hy]; rfl⟩

end Params

end Serpent
