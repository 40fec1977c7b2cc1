import Verif.Spec.Parameters
import Mathlib.Tactic.Linarith

/-!
# Lemmas about the options
-/

namespace Serpent

namespace Params

/-! ### Each component depends only on the calls listed for its source file -/

variable {p q : Server}

theorem filter_same (h : ∀ r ∈ filterReads, r.Same p q) : filter p = filter q := by
  simp only [filterReads, List.forall_mem_cons, Read.Same] at h
  simp only [filter, voxelParams, bodyParams, rangeParams, outlierParams, sampleParams, h]

theorem formatter_same (h : ∀ r ∈ formatterReads, r.Same p q) : formatter p = formatter q := by
  simp only [formatterReads, List.forall_mem_cons, Read.Same] at h
  simp only [formatter, h]

theorem normals_same (h : ∀ r ∈ normalsReads, r.Same p q) : normals p = normals q := by
  simp only [normalsReads, List.forall_mem_cons, Read.Same] at h
  simp only [normals, neighbourParams, h]

theorem mapping_same (h : ∀ r ∈ mappingReads, r.Same p q) : mapping p = mapping q := by
  simp only [mappingReads, List.forall_mem_cons, Read.Same] at h
  simp only [mapping, h]

theorem methodParams_same {pre : String} (h : ∀ r ∈ methodReads pre, r.Same p q) : methodParams p pre = methodParams q pre := by
  simp only [methodReads, List.forall_mem_cons, Read.Same] at h
  simp only [methodParams, fastVgicpParams, fastGicpParams, baseParams, h]

theorem registration_same {frames : String → Bool} {u : Bool} (h1 : ∀ r ∈ methodReads "s2s/", r.Same p q)
    (h2 : ∀ r ∈ methodReads "s2m/", r.Same p q) (h : ∀ r ∈ registrationReads, r.Same p q) :
    registration frames p u = registration frames q u := by
  have e1 := methodParams_same h1
  have e2 := methodParams_same h2
  simp only [methodReads, List.forall_mem_cons, Read.Same, String.reduceAppend] at h1 h2
  simp only [registrationReads, List.forall_mem_cons, Read.Same] at h
  simp only [registration, s2mParams, regConfig, e1, e2, h, h1, h2]

theorem stereo_same {cv : OpenCv} (h : ∀ r ∈ stereoReads, r.Same p q) : stereo cv p = stereo cv q := by
  simp only [stereoReads, List.forall_mem_cons, Read.Same] at h
  simp only [stereo, detectorParams, fastParams, gfttParams, orbParams, siftParams, flowParams, matcherParams, roiParams, h]

theorem frontend_same {frames : String → Bool} (h : ∀ r ∈ frontendReads, r.Same p q) : frontend frames p = frontend frames q := by
  simp only [frontendReads, List.forall_mem_cons, Read.Same] at h
  simp only [frontend, frontendPreintegration, imuOverwriteParams, barometerOverwriteParams, h]

theorem backend_same {frames : String → Bool} (h : ∀ r ∈ backendReads, r.Same p q) : backend frames p = backend frames q := by
  simp only [backendReads, List.forall_mem_cons, Read.Same] at h
  simp only [backend, isamParams, isamMethodParams, stereoFactorParams, robustnessParams, estimatorParams, barometerBiasParams,
    marginalisationParams, onCrashParams, backendPreintegration, h]

theorem single_same {cv : OpenCv} {frames : String → Bool} (h : ∀ r ∈ reads, r.Same p q) :
    single cv frames p = single cv frames q := by
  simp only [reads, List.forall_mem_append] at h
  obtain ⟨h1, h2, h3, h4, h5, h6, h7, h8, h9, h10, h11⟩ := h
  have e1 := filter_same h1
  have e2 := formatter_same h2
  have e3 := normals_same h3
  have e4 := mapping_same h4
  have e7 : ∀ u, registration frames p u = registration frames q u := fun u => registration_same h5 h6 h7
  have e8 := stereo_same (cv := cv) h8
  have e9 := frontend_same (frames := frames) h9
  have e10 := backend_same (frames := frames) h10
  simp only [nodeReads, List.forall_mem_cons, Read.Same] at h11
  simp only [single, singleLidar, stereoIfEnabled, filterIfEnabled, unitVectors, threadCount, e1, e2, e3, e4, e7, e8, e9, e10, h11]

theorem frontProcess_same {frames : String → Bool} (h : ∀ r ∈ reads, r.Same p q) :
    frontProcess frames p = frontProcess frames q := by
  simp only [reads, List.forall_mem_append] at h
  obtain ⟨h1, h2, h3, h4, h5, h6, h7, h8, h9, h10, h11⟩ := h
  have e1 := filter_same h1
  have e2 := formatter_same h2
  have e3 := normals_same h3
  have e9 := frontend_same (frames := frames) h9
  simp only [nodeReads, List.forall_mem_cons, Read.Same] at h11
  simp only [frontProcess, frontLidar, filterIfEnabled, unitVectors, threadCount, e1, e2, e3, e9, h11]

theorem backProcess_same {cv : OpenCv} {frames : String → Bool} (h : ∀ r ∈ reads, r.Same p q) :
    backProcess cv frames p = backProcess cv frames q := by
  simp only [reads, List.forall_mem_append] at h
  obtain ⟨h1, h2, h3, h4, h5, h6, h7, h8, h9, h10, h11⟩ := h
  have e4 := mapping_same h4
  have e7 : ∀ u, registration frames p u = registration frames q u := fun u => registration_same h5 h6 h7
  have e8 := stereo_same (cv := cv) h8
  have e10 := backend_same (frames := frames) h10
  simp only [nodeReads, List.forall_mem_cons, Read.Same] at h11
  simp only [backProcess, backLidar, stereoIfEnabled, unitVectors, threadCount, e4, e7, e8, e10, h11]

theorem stereoProcess_same {cv : OpenCv} (h : ∀ r ∈ reads, r.Same p q) : stereoProcess cv p = stereoProcess cv q := by
  simp only [reads, List.forall_mem_append] at h
  obtain ⟨h1, h2, h3, h4, h5, h6, h7, h8, h9, h10, h11⟩ := h
  have e8 := stereo_same (cv := cv) h8
  simp only [nodeReads, List.forall_mem_cons, Read.Same] at h11
  simp only [stereoProcess, threadCount, e8, h11]

/-! ### Setting one option -/

theorem same_of_eq (r : Read) (h : p r.name = q r.name) : r.Same p q := by
  cases r <;> simp only [Read.name] at h <;>
    simp only [Read.Same, Server.bool, Server.str, Server.double, Server.int, Server.ints, h]

theorem same_set_other (r : Read) {k : String} {v : Value} (h : r.name ≠ k) : r.Same (p.set k v) p :=
  same_of_eq r (by simp only [Server.set, if_neg h])

theorem same_set_default (r : Read) {k : String} {v : Value} (hp : p k = none) (hk : r.name = k) (hd : r.isDefault v = true) :
    r.Same (p.set k v) p := by
  cases r <;> simp only [Read.name] at hk <;> subst hk <;>
    simp only [Read.isDefault, decide_eq_true_eq, Bool.or_eq_true, Bool.and_eq_true] at hd
  · subst hd; simp only [Read.Same, Server.bool, Server.set, if_true, hp]
  · subst hd; simp only [Read.Same, Server.str, Server.set, if_true, hp]
  · rcases hd with hd | ⟨h1, hd⟩
    · subst hd; simp only [Read.Same, Server.double, Server.set, if_true, hp]
    · subst hd; simp only [Read.Same, Server.double, Server.set, if_true, hp]
      exact (Rat.den_eq_one_iff _).mp h1
  · subst hd; simp only [Read.Same, Server.int, Server.set, if_true, hp]
  · subst hd; simp only [Read.Same, Server.ints, Server.set, if_true, hp]

/-! ### Reading what is set -/

theorem bool_flag {k : String} {b : Bool} (h : Flag p k b) (d : Bool) : p.bool k d = b := by
  unfold Flag at h; simp only [Server.bool, h]

theorem str_word {k s : String} (h : Word p k s) (d : String) : p.str k d = s := by
  unfold Word at h; simp only [Server.str, h]

theorem double_number {k : String} {x : ℚ} (h : Number p k x) (d : ℚ) : p.double k d = x := by
  rcases h with h | ⟨n, h, rfl⟩ <;> simp only [Server.double, h]

theorem int_whole {k : String} {n : Int} (h : Whole p k n) (d : Int) : p.int k d = n := by
  unfold Whole at h; simp only [Server.int, h]

theorem flags {l : List (String × Bool)} (h : Flags p l) : ∀ e ∈ l, ∀ d, p.bool e.1 d = e.2 := fun e he d => bool_flag (h e he) d

theorem words {l : List (String × String)} (h : Words p l) : ∀ e ∈ l, ∀ d, p.str e.1 d = e.2 := fun e he d => str_word (h e he) d

theorem numbers {l : List (String × ℚ)} (h : Numbers p l) : ∀ e ∈ l, ∀ d, p.double e.1 d = e.2 :=
  fun e he d => double_number (h e he) d

theorem wholes {l : List (String × Int)} (h : Wholes p l) : ∀ e ∈ l, ∀ d, p.int e.1 d = e.2 := fun e he d => int_whole (h e he) d

/-! ### The parts of a node that starts -/

theorem bind_eq_ok {α β : Type} {x : Outcome α} {f : α → Outcome β} {b : β} (h : x >>= f = .ok b) :
    ∃ a, x = .ok a ∧ f a = .ok b := by
  cases x with
  | ok a => exact ⟨a, rfl, h⟩
  | throws => cases h
  | ub => cases h

theorem single_eq_ok {cv : OpenCv} {frames : String → Bool} {s : Single} :
    single cv frames p = .ok s ↔ frontend frames p = .ok s.frontend ∧ backend frames p = .ok s.backend ∧
      formatter p = .ok s.formatter ∧ singleLidar frames p = .ok s.lidar ∧ stereoIfEnabled cv p = .ok s.stereo ∧
      threadCount p = .ok s.threads := by
  constructor
  · intro h
    obtain ⟨a, ha, h⟩ := bind_eq_ok h
    obtain ⟨b, hb, h⟩ := bind_eq_ok h
    obtain ⟨c, hc, h⟩ := bind_eq_ok h
    obtain ⟨d, hd, h⟩ := bind_eq_ok h
    obtain ⟨e, he, h⟩ := bind_eq_ok h
    obtain ⟨f, hf, h⟩ := bind_eq_ok h
    cases h
    exact ⟨ha, hb, hc, hd, he, hf⟩
  · rintro ⟨h1, h2, h3, h4, h5, h6⟩
    simp only [single, h1, h2, h3, h4, h5, h6, Outcome.bind_ok]

theorem lidar_eq_ok {frames : String → Bool} {f : LidarFront} {b : LidarBack} (h : singleLidar frames p = .ok (some (f, b))) :
    unitVectors p = .ok f.unit ∧ filterIfEnabled p = .ok f.filter ∧ normals p = .ok f.normals ∧ mapping p = .ok b.mapping ∧
      registration frames p f.unit = .ok b.registration := by
  unfold singleLidar at h
  split at h
  · obtain ⟨u, hu, h⟩ := bind_eq_ok h
    obtain ⟨v, hv, h⟩ := bind_eq_ok h
    obtain ⟨w, hw, h⟩ := bind_eq_ok h
    obtain ⟨m, hm, h⟩ := bind_eq_ok h
    obtain ⟨r, hr, h⟩ := bind_eq_ok h
    cases h
    exact ⟨hu, hv, hw, hm, hr⟩
  · cases h

theorem filter_eq_ok {f : Filter} (h : filter p = .ok f) :
    voxelParams p = .ok f.voxel ∧ sampleParams p = .ok f.sample ∧ bodyParams p = f.body ∧ rangeParams p = f.range ∧
      outlierParams p = f.outliers := by
  obtain ⟨v, hv, h⟩ := bind_eq_ok h
  obtain ⟨w, hw, h⟩ := bind_eq_ok h
  cases h
  exact ⟨hv, hw, rfl, rfl, rfl⟩

theorem registration_eq_ok {frames : String → Bool} {u : Bool} {r : Reg} (h : registration frames p u = .ok r) :
    methodParams p "s2s/" = .ok r.s2s ∧ s2mParams p = .ok r.s2m ∧ Lidar.construct (regConfig p u) = .ok r.members ∧
      frames "lidar" = true ∧ r.unit = u ∧ r.checkNormals = p.bool "debug/registration/check_normals" false ∧
      r.publishClouds = p.bool "debug/registration/publish_clouds" false ∧
      r.publishCloudsAlt = (p.bool "debug/registration/publish_clouds" false &&
        p.bool "debug/registration/publish_clouds_alt" false) := by
  obtain ⟨a, ha, h⟩ := bind_eq_ok h
  obtain ⟨b, hb, h⟩ := bind_eq_ok h
  obtain ⟨c, hc, h⟩ := bind_eq_ok h
  split at h
  · cases h
  · rename_i hf
    cases h
    exact ⟨ha, hb, hc, by simpa using hf, rfl, rfl, rfl, rfl⟩

theorem s2m_eq_ok {m : Method} (h : s2mParams p = .ok (some m)) : methodParams p "s2m/" = .ok m := by
  unfold s2mParams at h
  split at h
  · obtain ⟨a, ha, h⟩ := bind_eq_ok h
    cases h
    exact ha
  · cases h

theorem stereo_eq_ok {cv : OpenCv} {t : StereoTracking} (h : stereoIfEnabled cv p = .ok (some t)) : stereo cv p = .ok t := by
  unfold stereoIfEnabled at h
  split at h
  · obtain ⟨a, ha, h⟩ := bind_eq_ok h
    cases h
    exact ha
  · cases h

theorem toUnsigned_natCast {n : Nat} (h : n < 2 ^ 32) : toUnsigned (n : ℚ) = .ok n := by
  have h0 : (0 : ℚ) ≤ n := Nat.cast_nonneg n
  have ht : truncate (n : ℚ) = n := by
    unfold truncate
    rw [if_pos h0]
    exact_mod_cast Rat.floor_intCast (n : Int)
  unfold toUnsigned
  rw [ht, if_pos ⟨by omega, by omega⟩]
  simp

end Params

end Serpent
