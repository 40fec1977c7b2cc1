import Verif.Props.ParametersValid
import Verif.Props.Registration

/-!
# C128: components agree on the options they share, and two processes are the same as one

Options are read again in every component, with a default of its own.
-/

namespace Serpent

namespace Params

variable {cv : OpenCv} {frames : String → Bool} {p : Server} {s : Single} {f : LidarFront} {b : LidarBack}

theorem frontend_shared {e : FrontEnd} (h : frontend frames p = .ok e) : e.mapFrame = p.str "map_frame_id" "map" ∧
    e.stereo = p.bool "optimisation/factors/stereo" true ∧ e.barometer = p.bool "optimisation/factors/barometer" true ∧
    e.preintegration = frontendPreintegration p := by
  unfold frontend at h
  split at h
  · cases h
  · split at h
    · cases h
    · split at h
      · cases h
      · obtain ⟨a, -, h⟩ := bind_eq_ok h
        injection h with e
        subst e
        exact ⟨rfl, rfl, rfl, rfl⟩

theorem backend_shared {e : BackEnd} (h : backend frames p = .ok e) : e.mapFrame = p.str "map_frame_id" "map" ∧
    e.stereo.isSome = p.bool "optimisation/factors/stereo" true ∧
    e.barometerBias.isSome = p.bool "optimisation/factors/barometer" true ∧
    e.registration = p.bool "optimisation/factors/registration" true ∧ e.preintegration = backendPreintegration p := by
  unfold backend at h
  split at h
  · cases h
  · obtain ⟨i, -, h⟩ := bind_eq_ok h
    obtain ⟨t, ht, h⟩ := bind_eq_ok h
    obtain ⟨a, ha, h⟩ := bind_eq_ok h
    obtain ⟨m, -, h⟩ := bind_eq_ok h
    injection h with e
    subst e
    refine ⟨rfl, ?_, ?_, rfl, rfl⟩
    · unfold stereoFactorParams at ht
      split at ht
      · rename_i hb
        split at ht
        · cases ht
        · obtain ⟨r, -, ht⟩ := bind_eq_ok ht
          injection ht with ht
          subst ht
          exact hb.symm
      · rename_i hb
        injection ht with ht
        subst ht
        exact (Bool.not_eq_true _ ▸ hb : _ = false).symm
    · unfold barometerBiasParams at ha
      split at ha
      · rename_i hb
        split at ha
        · cases ha
        · injection ha with ha
          subst ha
          exact hb.symm
      · rename_i hb
        injection ha with ha
        subst ha
        exact (Bool.not_eq_true _ ▸ hb : _ = false).symm

theorem lidar_isSome {l : Option (LidarFront × LidarBack)} (h : singleLidar frames p = .ok l) :
    l.isSome = p.bool "optimisation/factors/registration" true := by
  unfold singleLidar at h
  split at h
  · rename_i hb
    obtain ⟨_, -, h⟩ := bind_eq_ok h
    obtain ⟨_, -, h⟩ := bind_eq_ok h
    obtain ⟨_, -, h⟩ := bind_eq_ok h
    obtain ⟨_, -, h⟩ := bind_eq_ok h
    obtain ⟨_, -, h⟩ := bind_eq_ok h
    injection h with h
    subst h
    exact hb.symm
  · rename_i hb
    injection h with h
    subst h
    exact (Bool.not_eq_true _ ▸ hb : _ = false).symm

theorem stereo_isSome {t : Option StereoTracking} (h : stereoIfEnabled cv p = .ok t) :
    t.isSome = p.bool "optimisation/factors/stereo" true := by
  unfold stereoIfEnabled at h
  split at h
  · rename_i hb
    obtain ⟨_, -, h⟩ := bind_eq_ok h
    injection h with h
    subst h
    exact hb.symm
  · rename_i hb
    injection h with h
    subst h
    exact (Bool.not_eq_true _ ▸ hb : _ = false).symm

/-! ### Shared options -/

/-- Front end and back end integrate measurements of the IMU with the same gravity and the same noise. -/
theorem C128_preintegration (h : single cv frames p = .ok s) : s.frontend.preintegration = s.backend.preintegration := by
  obtain ⟨hf, hb, -⟩ := single_eq_ok.mp h
  rw [(frontend_shared hf).2.2.2, (backend_shared hb).2.2.2.2]
  rfl

/-- Front end, back end and mapping publish in the same frame. -/
theorem C128_map_frame (h : single cv frames p = .ok s) : s.frontend.mapFrame = s.backend.mapFrame ∧
    (s.lidar = some (f, b) → b.mapping.mapFrame = s.backend.mapFrame) := by
  obtain ⟨hf, hb, -, hl, -⟩ := single_eq_ok.mp h
  refine ⟨by rw [(frontend_shared hf).1, (backend_shared hb).1], fun e => ?_⟩
  rw [e] at hl
  obtain ⟨-, -, -, hm, -⟩ := lidar_eq_ok hl
  rw [(backend_shared hb).1]
  unfold mapping at hm
  split at hm
  · cases hm
  · obtain ⟨_, -, hm⟩ := bind_eq_ok hm
    obtain ⟨_, -, hm⟩ := bind_eq_ok hm
    injection hm with hm
    rw [← hm]

/-- The front end waits for stereo features exactly if they are tracked and used; it integrates the barometer exactly if it is used;
pointclouds are processed exactly if their factors are used. -/
theorem C128_enabled (h : single cv frames p = .ok s) : s.frontend.stereo = s.stereo.isSome ∧
    s.frontend.stereo = s.backend.stereo.isSome ∧ s.frontend.barometer = s.backend.barometerBias.isSome ∧
    s.backend.registration = s.lidar.isSome := by
  obtain ⟨hf, hb, -, hl, ht, -⟩ := single_eq_ok.mp h
  obtain ⟨-, h1, h2, -⟩ := frontend_shared hf
  obtain ⟨-, h3, h4, h5, -⟩ := backend_shared hb
  exact ⟨by rw [h1, stereo_isSome ht], by rw [h1, h3], by rw [h2, h4], by rw [h5, lidar_isSome hl]⟩

/-- Unit vectors are added exactly if the registration has points with unit vectors, and every covariance can be computed: no member
is read that was not set, and no function refuses the points. -/
theorem C128_unit_vectors (h : single cv frames p = .ok s) (hl : s.lidar = some (f, b)) : f.unit = b.registration.unit ∧
    ∃ call, Lidar.covarianceCall (regConfig p f.unit) b.registration.members = .ok call := by
  obtain ⟨-, -, -, hs, -⟩ := single_eq_ok.mp h
  rw [hl] at hs
  obtain ⟨hu, -, -, -, hr⟩ := lidar_eq_ok hs
  obtain ⟨-, -, hc, -, hu', -⟩ := registration_eq_ok hr
  refine ⟨hu'.symm, ?_⟩
  have hn : Lidar.nodeConfig (regConfig p false) = .ok (regConfig p f.unit) := by
    unfold Lidar.nodeConfig
    have : Lidar.requiresUnitVectorsNamed (regConfig p false).covMethod (regConfig p false).pointMethod = .ok f.unit := hu
    rw [this, Outcome.bind_ok]
    rfl
  obtain ⟨cov, model, point, -, -, -, -, e⟩ := Lidar.C97_covariance hn hc
  exact ⟨_, e⟩

/-- If the noise of points is taken from the size of voxels, the filter of voxels exists and has this size. -/
theorem C128_voxel_size (h : single cv frames p = .ok s) (hl : s.lidar = some (f, b))
    (hv : b.registration.members.pointMethod = some .voxelSize) :
    ∃ g v, f.filter = some g ∧ g.voxel = some v ∧ b.registration.members.pointVariance = some (v.leafSize ^ 2) := by
  obtain ⟨-, -, -, hs, -⟩ := single_eq_ok.mp h
  rw [hl] at hs
  obtain ⟨-, hfi, -, -, hr⟩ := lidar_eq_ok hs
  obtain ⟨-, -, hc, -⟩ := registration_eq_ok hr
  generalize hm : b.registration.members = m at *
  unfold Lidar.construct at hc
  obtain ⟨s2s, -, hc⟩ := bind_eq_ok hc
  obtain ⟨s2m, -, hc⟩ := bind_eq_ok hc
  obtain ⟨cov, -, hc⟩ := bind_eq_ok hc
  dsimp only at hc
  split at hc
  · injection hc with hc
    rw [← hc] at hv
    cases hv
  · rename_i hne
    unfold Lidar.configureEstimate at hc
    obtain ⟨model, -, hc⟩ := bind_eq_ok hc
    obtain ⟨m1, h1, hc⟩ := bind_eq_ok hc
    obtain ⟨g, -, hc⟩ := bind_eq_ok hc
    cases g with
    | constant =>
      simp only [Lidar.setPointVariance, Outcome.ok.injEq] at hc
      rw [← hc] at hv; cases hv
    | range =>
      simp only [Lidar.setPointVariance, Lidar.setRange] at hc
      split at hc
      · cases hc
      · split at hc
        · cases hc
        · injection hc with hc; rw [← hc] at hv; cases hv
    | rangeBias =>
      simp only [Lidar.setPointVariance, Lidar.setRange] at hc
      split at hc
      · cases hc
      · split at hc
        · cases hc
        · split at hc
          · cases hc
          · injection hc with hc; rw [← hc] at hv; cases hv
    | voxelSize =>
      simp only [Lidar.setPointVariance] at hc
      split at hc
      · cases hc
      · rename_i hf
        have hf' : p.bool "voxel_grid_filter/enabled" true = true := by simpa [regConfig] using hf
        injection hc with hc
        unfold filterIfEnabled at hfi
        rw [if_pos (by simp [hf'])] at hfi
        obtain ⟨g, hg, hfi⟩ := bind_eq_ok hfi
        injection hfi with hfi
        obtain ⟨hx, -⟩ := filter_eq_ok hg
        unfold voxelParams at hx
        rw [if_pos hf'] at hx
        obtain ⟨n, -, hx⟩ := bind_eq_ok hx
        injection hx with hx
        exact ⟨g, _, hfi.symm, hx.symm, by rw [← hc]; rfl⟩

/-- The filters that exist are those of the subscriptions (C63): each is subscribed to exactly if it exists. -/
theorem C128_filters_subscribed (h : single cv frames p = .ok s) (hl : s.lidar = some (f, b)) :
    (f.filter = none ↔ ((filterConfig p).voxel || (filterConfig p).body || (filterConfig p).range || (filterConfig p).outliers ||
      (filterConfig p).sample) = false) ∧
    ∀ g, f.filter = some g → g.voxel.isSome = (filterConfig p).voxel ∧ g.body.isSome = (filterConfig p).body ∧
      g.range.isSome = (filterConfig p).range ∧ g.outliers.isSome = (filterConfig p).outliers ∧
      g.sample.isSome = (filterConfig p).sample := by
  obtain ⟨-, -, -, hs, -⟩ := single_eq_ok.mp h
  rw [hl] at hs
  obtain ⟨-, hfi, -⟩ := lidar_eq_ok hs
  unfold filterIfEnabled at hfi
  split at hfi
  · rename_i he
    obtain ⟨g, hg, hfi⟩ := bind_eq_ok hfi
    injection hfi with hfi
    refine ⟨⟨fun e => (by rw [← hfi] at e; exact nomatch e), fun e => ?_⟩, ?_⟩
    · rw [show ((filterConfig p).voxel || (filterConfig p).body || (filterConfig p).range || (filterConfig p).outliers ||
        (filterConfig p).sample) = true from he] at e
      cases e
    · intro g' hg'
      rw [← hfi] at hg'
      injection hg' with hg'
      subst hg'
      obtain ⟨h1, h2, h3, h4, h5⟩ := filter_eq_ok hg
      refine ⟨?_, ?_, ?_, ?_, ?_⟩
      · unfold voxelParams at h1
        show _ = p.bool "voxel_grid_filter/enabled" true
        split at h1
        · rename_i hb
          obtain ⟨_, -, h1⟩ := bind_eq_ok h1
          injection h1 with h1
          rw [← h1, hb]; rfl
        · rename_i hb
          injection h1 with h1
          rw [← h1]; simp [hb]
      · rw [← h3]; unfold bodyParams
        show _ = p.bool "body_filter/enabled" false
        split <;> simp [*]
      · rw [← h4]; unfold rangeParams
        show _ = p.bool "range_filter/enabled" true
        split <;> simp [*]
      · rw [← h5]; unfold outlierParams
        show _ = p.bool "statistical_outlier_removal/enabled" false
        split <;> simp [*]
      · unfold sampleParams at h2
        show _ = p.bool "random_sample_filter/enabled" false
        split at h2
        · rename_i hb
          split at h2
          · cases h2
          · split at h2
            · cases h2
            · injection h2 with h2
              rw [← h2, hb]; rfl
        · rename_i hb
          injection h2 with h2
          rw [← h2]; simp [hb]
  · rename_i he
    injection hfi with hfi
    exact ⟨⟨fun _ => (by simpa [filterConfig] using he), fun _ => hfi.symm⟩, fun g hg => (by rw [← hfi] at hg; exact nomatch hg)⟩

/-! ### One process and two processes -/

/-- The single process starts exactly if the process of the front end and that of the back end start. -/
theorem C128_split_starts : (∃ s, single cv frames p = .ok s) ↔
    (∃ a, frontProcess frames p = .ok a) ∧ ∃ b, backProcess cv frames p = .ok b := by
  rw [C126_starts_iff_valid, C126_front_end_starts, C126_back_end_starts]
  constructor
  · intro h
    exact ⟨⟨h.frontend, h.format, fun e => ⟨(h.lidar e).filter, (h.lidar e).normals, (h.lidar e).covariance.method,
      (h.lidar e).covariance.point⟩, h.threads⟩, h.backend, fun e => ⟨(h.lidar e).mapping, (h.lidar e).s2s, (h.lidar e).s2m,
      (h.lidar e).covariance, (h.lidar e).frame⟩, h.stereo, h.threads⟩
  · rintro ⟨⟨h1, h2, h3, h4⟩, h5, h6, h7, -⟩
    exact ⟨h1, h5, h2, fun e => ⟨(h3 e).1, (h3 e).2.1, (h6 e).1, (h6 e).2.1, (h6 e).2.2.1, (h6 e).2.2.2.1, (h6 e).2.2.2.2⟩, h7, h4⟩

/-- The components of the two processes are those of the single process. -/
theorem C128_split_same (h : single cv frames p = .ok s) :
    frontProcess frames p = .ok ⟨s.frontend, s.formatter, s.lidar.map Prod.fst, s.threads⟩ ∧
    backProcess cv frames p = .ok ⟨s.backend, s.lidar.map Prod.snd, s.stereo, s.threads⟩ := by
  obtain ⟨hf, hb, hfo, hl, hs, ht⟩ := single_eq_ok.mp h
  have h1 : frontLidar p = .ok (s.lidar.map Prod.fst) ∧ backLidar frames p = .ok (s.lidar.map Prod.snd) := by
    unfold singleLidar at hl
    unfold frontLidar backLidar
    split at hl
    · rename_i he
      obtain ⟨u, hu, hl⟩ := bind_eq_ok hl
      obtain ⟨fi, hfi, hl⟩ := bind_eq_ok hl
      obtain ⟨n, hn, hl⟩ := bind_eq_ok hl
      obtain ⟨m, hm, hl⟩ := bind_eq_ok hl
      obtain ⟨r, hr, hl⟩ := bind_eq_ok hl
      injection hl with hl
      rw [← hl]
      simp only [he, if_true, hu, hfi, hn, hm, hr, Outcome.bind_ok, Option.map_some, and_self]
    · rename_i he
      injection hl with hl
      rw [← hl]
      simp only [he, Bool.false_eq_true, if_false, Option.map_none, and_self]
  exact ⟨by simp only [frontProcess, hf, hfo, h1.1, ht, Outcome.bind_ok],
    by simp only [backProcess, hb, h1.2, hs, ht, Outcome.bind_ok]⟩

/-- The process that only tracks features tracks them as the single process does. -/
theorem C128_stereo_pipeline_same (h : single cv frames p = .ok s) {t : StereoTracking} (ht : s.stereo = some t) :
    stereoProcess cv p = .ok (t, s.threads) := by
  obtain ⟨-, -, -, -, hs, hth⟩ := single_eq_ok.mp h
  rw [ht] at hs
  simp only [stereoProcess, stereo_eq_ok hs, hth, Outcome.bind_ok]

/-- With the configuration files, and with the noise of points taken from the size of voxels. -/
example : ∃ p s f b, single ⟨4, 4⟩ shippedFrames p = .ok s ∧ s.lidar = some (f, b) ∧
    b.registration.members.pointMethod = some .voxelSize ∧ s.stereo.isSome = true := by
  refine ⟨shippedServer.set "registration_covariance/point_covariance/method" (.string "VOXEL_SIZE"), ?_⟩
  have h : (match single ⟨4, 4⟩ shippedFrames (shippedServer.set "registration_covariance/point_covariance/method"
      (.string "VOXEL_SIZE")) with
    | .ok s => (match s.lidar with
      | some l => decide (l.2.registration.members.pointMethod = some .voxelSize) && s.stereo.isSome
      | none => false)
    | _ => false) = true := by decide +kernel
  split at h
  · rename_i s hs
    split at h
    · rename_i l hl
      simp only [Bool.and_eq_true, decide_eq_true_eq] at h
      exact ⟨s, l.1, l.2, hs, hl, h⟩
    · cases h
  · cases h

end Params

end Serpent
