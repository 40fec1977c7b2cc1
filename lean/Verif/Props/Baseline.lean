import Verif.Props.BackEndSched
import Verif.Props.StereoTrackerWitness

/-!
# C143: stereo camera parameters without a valid baseline

`P` is the projection matrix of the right camera; the baseline is `-P[3] / P[0]`. An uncalibrated camera has a matrix of zeros.
-/

namespace Serpent

namespace BackEnd

open Graph M

variable {Val D O C I : Type}

/-- The state in which the stereo key is advanced; nothing else is changed. -/
theorem increment_cases (s : BE Val D O) :
    (onG (increment "stereo") s = (.throws, s)) ∨
    ∃ ks, onG (increment "stereo") s = (.ok (), { s with isam := { s.isam with gm := { s.isam.gm with keys := ks } } }) := by
  show ((increment "stereo" s.isam.gm).1, { s with isam := { s.isam with gm := (increment "stereo" s.isam.gm).2 } }) = _ ∨ ∃ ks,
    ((increment "stereo" s.isam.gm).1, { s with isam := { s.isam with gm := (increment "stereo" s.isam.gm).2 } }) = _
  unfold increment
  cases h : s.isam.gm.keys.find "stereo" with
  | none => exact Or.inl rfl
  | some p => exact Or.inr ⟨_, rfl⟩

/-- Reading the key and the time stamp: an exception or a value, and no change. -/
theorem stamp_cases (s : BE Val D O) {α : Type} (f : Int → Int → M (BE Val D O) α) :
    ((read (fun g => key g "stereo" 0) >>= fun k => read (fun g => timestamp g k) >>= fun t => f k t) s = (.throws, s)) ∨
    ∃ k t, (read (fun g => key g "stereo" 0) >>= fun k => read (fun g => timestamp g k) >>= fun t => f k t) s = f k t s := by
  have hr : ∀ {β : Type} (g : GM Val D → Outcome β), (read g : M (BE Val D O) β) s = (g s.isam.gm, s) := fun _ => rfl
  rw [M.bind_run, hr]
  unfold key
  cases s.isam.gm.keys.find "stereo" with
  | none => exact Or.inl rfl
  | some p =>
    dsimp only
    rw [M.bind_run, hr]
    unfold timestamp
    cases s.isam.gm.timestamps.find (p.1 + 0) with
    | none => exact Or.inl rfl
    | some t => exact Or.inr ⟨_, _, rfl⟩

/-- C143 (partial: `P[0]` is not zero). Without a calibration, a message whose baseline is not positive ends the callback with an
exception; no calibration is stored, and no factor, value, landmark or observation is added. -/
theorem C143_backend_partial (api : Api Val D O C I) (s : BE Val D O) (msg : StereoMsg) (hc : s.isam.gm.calib = none)
    (h0 : msg.p0 ≠ 0) (hb : ¬ 0 < -msg.p3 / msg.p0) :
    (addStereoFactors api msg s).1 = .throws ∧ (addStereoFactors api msg s).2.isam.gm.calib.isNone = true ∧
    (addStereoFactors api msg s).2.isam.gm.factors = s.isam.gm.factors ∧
    (addStereoFactors api msg s).2.isam.gm.values = s.isam.gm.values ∧
    (addStereoFactors api msg s).2.isam.gm.landmarkIds = s.isam.gm.landmarkIds ∧
    (addStereoFactors api msg s).2.isam.gm.features = s.isam.gm.features := by
  unfold addStereoFactors
  rw [M.bind_run]
  rcases increment_cases s with h | ⟨ks, h⟩
  · rw [h]
    exact ⟨rfl, by rw [hc]; rfl, rfl, rfl, rfl, rfl⟩
  · rw [h]
    dsimp only
    rcases stamp_cases { s with isam := { s.isam with gm := { s.isam.gm with keys := ks } } } (fun k t =>
      if t ≠ msg.stamp then M.throw else do
      let s ← M.get
      branch s.isam.gm.calib.isNone
        (branch ((baselineOf msg.p3 msg.p0).nonPositive = true) M.throw (onG (setCalibration (api.calibrate msg)))) (pure ())
      let fs ← M.lift (fromRos msg.features)
      onG (createStereo k (fs.map (fun e => (e.1, api.obs e.2))))) with h | ⟨k, t, h⟩
    · rw [h]
      exact ⟨rfl, by show s.isam.gm.calib.isNone = true; rw [hc]; rfl, rfl, rfl, rfl, rfl⟩
    · rw [h]
      have hn : (baselineOf msg.p3 msg.p0).nonPositive = true := by
        unfold baselineOf
        rw [divide_of_ne h0]
        exact decide_eq_true (not_lt.1 hb)
      by_cases ht : t ≠ msg.stamp
      · rw [if_pos ht]
        exact ⟨rfl, by show s.isam.gm.calib.isNone = true; rw [hc]; rfl, rfl, rfl, rfl, rfl⟩
      · rw [if_neg ht, M.get_bind, M.bind_run]
        unfold branch
        rw [if_pos (by show s.isam.gm.calib.isNone = true; rw [hc]; rfl), if_pos hn]
        exact ⟨rfl, by show s.isam.gm.calib.isNone = true; rw [hc]; rfl, rfl, rfl, rfl, rfl⟩

/-- Nothing that `create_stereo_factors_and_values` does changes the calibration. -/
theorem keeps_calib_createStereo (f : Val → D → Val) (k : Int) (fs : OMap Int D) :
    Keeps (fun g : GM Val D => g.calib = some f) (createStereo k fs) := by
  refine keeps_createStereo_of (fun id v => keeps_set (fun _ _ _ _ h => h) _ _ _) (fun k f _ => keeps_addFactor (fun _ _ _ h => h) _ _)
    (fun _ _ _ _ h => h) (fun _ _ h => h) (fun _ _ h => h) k fs

theorem keeps_calib_rest (api : Api Val D O C I) (f : Val → D → Val) (k : Int) (msg : StereoMsg) :
    Keeps (fun s : BE Val D O => s.isam.gm.calib = some f) (do
      let fs ← M.lift (fromRos msg.features)
      onG (createStereo k (fs.map (fun e => (e.1, api.obs e.2))))) :=
  Keeps.bind (Keeps.lift _) fun fs s h => by
    show (createStereo k (fs.map (fun e => (e.1, api.obs e.2))) s.isam.gm).2.calib = some f
    exact keeps_calib_createStereo f k _ s.isam.gm h

/-- C143. A message with a positive baseline that is processed without an exception determines the calibration, if there was none. -/
theorem C143_accepted (api : Api Val D O C I) (s : BE Val D O) (msg : StereoMsg) (hc : s.isam.gm.calib = none)
    (hb : 0 < -msg.p3 / msg.p0) (hok : (addStereoFactors api msg s).1 = .ok ()) :
    (addStereoFactors api msg s).2.isam.gm.calib = some (api.calibrate msg) := by
  revert hok
  unfold addStereoFactors
  rw [M.bind_run]
  rcases increment_cases s with h | ⟨ks, h⟩
  · rw [h]
    intro e; cases e
  · rw [h]
    dsimp only
    rcases stamp_cases { s with isam := { s.isam with gm := { s.isam.gm with keys := ks } } } (fun k t =>
      if t ≠ msg.stamp then M.throw else do
      let s ← M.get
      branch s.isam.gm.calib.isNone
        (branch ((baselineOf msg.p3 msg.p0).nonPositive = true) M.throw (onG (setCalibration (api.calibrate msg)))) (pure ())
      let fs ← M.lift (fromRos msg.features)
      onG (createStereo k (fs.map (fun e => (e.1, api.obs e.2))))) with h | ⟨k, t, h⟩
    · rw [h]
      intro e; cases e
    · rw [h]
      have hn : ¬ (baselineOf msg.p3 msg.p0).nonPositive = true := by
        rw [baselineOf_good hb]
        unfold Division.nonPositive
        simpa using hb
      by_cases ht : t ≠ msg.stamp
      · rw [if_pos ht]
        intro e; cases e
      · rw [if_neg ht, M.get_bind, M.bind_run]
        unfold branch
        rw [if_pos (by show s.isam.gm.calib.isNone = true; rw [hc]; rfl), if_neg hn]
        intro _
        exact keeps_calib_rest api _ k msg _ rfl

/-- C143. The first camera parameters count: a stored calibration is kept by every later message, whatever the message contains
and whether or not it is processed without an exception. -/
theorem C143_kept (api : Api Val D O C I) (s : BE Val D O) (msg : StereoMsg) (f : Val → D → Val)
    (hc : s.isam.gm.calib = some f) : (addStereoFactors api msg s).2.isam.gm.calib = some f := by
  unfold addStereoFactors
  rw [M.bind_run]
  rcases increment_cases s with h | ⟨ks, h⟩
  · rw [h]
    exact hc
  · rw [h]
    dsimp only
    rcases stamp_cases { s with isam := { s.isam with gm := { s.isam.gm with keys := ks } } } (fun k t =>
      if t ≠ msg.stamp then M.throw else do
      let s ← M.get
      branch s.isam.gm.calib.isNone
        (branch ((baselineOf msg.p3 msg.p0).nonPositive = true) M.throw (onG (setCalibration (api.calibrate msg)))) (pure ())
      let fs ← M.lift (fromRos msg.features)
      onG (createStereo k (fs.map (fun e => (e.1, api.obs e.2))))) with h | ⟨k, t, h⟩
    · rw [h]
      exact hc
    · rw [h]
      by_cases ht : t ≠ msg.stamp
      · rw [if_pos ht]
        exact hc
      · rw [if_neg ht, M.get_bind, M.bind_run]
        unfold branch
        rw [if_neg (by show ¬ s.isam.gm.calib.isNone = true; rw [hc]; simp)]
        exact keeps_calib_rest api _ k msg _ hc

/-! A run of the node: odometry, then the first stereo message with the given projection matrix. -/

/-- The outcome of a first stereo message with the projection matrix `p0`, `p3`, and whether a calibration is stored afterwards. -/
def firstStereo (p3 p0 : ℚ) : Option (Outcome Unit × Bool) :=
  (nodeRun .nodeCount demoApi demoCfg [.initial ⟨0, 10, 1, false, false⟩] { be := demoInit }).bind fun s =>
    (nodeStep .nodeCount demoApi demoCfg (.stereo { stamp := 0, p3 := p3, p0 := p0, features := [⟨7, 3, 1, 2, 1⟩] }) s).map fun r =>
      (r.1, r.2.be.isam.gm.calib.isSome)

/-- **C143 fails** for the camera parameters of an uncalibrated camera, whose matrix is zero: zero divided by zero is not a number,
which is not refused by `baseline <= 0`, and the calibration is stored. -/
theorem C143_fails_uncalibrated : firstStereo 0 0 = some (.ok (), true) := by decide +kernel

-- a negative and a zero baseline are refused, a positive one is accepted; an infinite one is accepted too
example : firstStereo 1 2 = some (.throws, false) ∧ firstStereo 0 2 = some (.throws, false) ∧
    firstStereo (-1) 2 = some (.ok (), true) ∧ firstStereo (-1) 0 = some (.ok (), true) := by
  refine ⟨?_, ?_, ?_, ?_⟩ <;> decide +kernel

end BackEnd

namespace Stereo

variable {I : Type}

/-- C143 (partial: `P[0]` of the right camera is not zero). Before the first frame and with the distance filter enabled, camera
parameters are accepted if and only if both focal lengths are equal and the baseline is positive; then distances are computed with this
focal length and baseline. Otherwise there is an exception and nothing changes. -/
theorem C143_filter_partial (fcfg : FinderConfig ℚ) (li ri : CameraInfo ℚ) (s : Tracker I ℚ) (hf : s.frameNumber = -1)
    (he : fcfg.distanceEnabled = true) (h0 : ri.p0 ≠ 0) :
    (li.intrinsic 0 0 = ri.intrinsic 0 0 ∧ 0 < -ri.p3 / ri.p0 → setupDistanceFilter fcfg li ri s =
      (.ok (), { s with distanceFilter := some (.create (li.intrinsic 0 0) (-ri.p3 / ri.p0) fcfg.maxDistance fcfg.minDistance) })) ∧
    (¬ (li.intrinsic 0 0 = ri.intrinsic 0 0 ∧ 0 < -ri.p3 / ri.p0) → setupDistanceFilter fcfg li ri s = (.throws, s)) := by
  unfold setupDistanceFilter
  rw [M.get_bind, if_pos ⟨hf, he⟩]
  have hn : (baselineOf ri.p3 ri.p0).nonPositive = true ↔ ¬ 0 < -ri.p3 / ri.p0 := by
    unfold baselineOf
    rw [divide_of_ne h0]
    exact decide_eq_true_iff.trans not_lt.symm
  constructor
  · rintro ⟨h1, h2⟩
    rw [if_neg (not_not.2 h1)]
    show (if (baselineOf ri.p3 ri.p0).nonPositive = true then M.throw else _ : M (Tracker I ℚ) Unit) s = _
    rw [if_neg (fun h => hn.1 h h2), baselineOf_good h2]
    rfl
  · intro h
    by_cases h1 : li.intrinsic 0 0 = ri.intrinsic 0 0
    · rw [if_neg (not_not.2 h1)]
      show (if (baselineOf ri.p3 ri.p0).nonPositive = true then M.throw else _ : M (Tracker I ℚ) Unit) s = _
      rw [if_pos (hn.2 fun h2 => h ⟨h1, h2⟩)]
      rfl
    · rw [if_pos h1]
      rfl

/-- With `P[0] = 0` a distance filter that is created accepts no distance. -/
theorem setup_zero (fcfg : FinderConfig ℚ) (li ri : CameraInfo ℚ) (s : Tracker I ℚ) (he : fcfg.distanceEnabled = true)
    (h0 : ri.p0 = 0) :
    (setupDistanceFilter fcfg li ri s = (.throws, s)) ∨
    (s.frameNumber ≠ -1 ∧ setupDistanceFilter fcfg li ri s = (.ok (), s)) ∨
    ∃ d, d.fxB = none ∧ setupDistanceFilter fcfg li ri s = (.ok (), { s with distanceFilter := some d }) := by
  unfold setupDistanceFilter
  rw [M.get_bind]
  by_cases hf : s.frameNumber = -1
  · rw [if_pos ⟨hf, he⟩]
    by_cases h1 : li.intrinsic 0 0 ≠ ri.intrinsic 0 0
    · rw [if_pos h1]; exact Or.inl rfl
    · rw [if_neg h1]
      by_cases h3 : (baselineOf ri.p3 ri.p0).nonPositive = true
      · left
        show (if (baselineOf ri.p3 ri.p0).nonPositive = true then M.throw else _ : M (Tracker I ℚ) Unit) s = _
        rw [if_pos h3]; rfl
      · right; right
        refine ⟨.createFrom (li.intrinsic 0 0) (baselineOf ri.p3 ri.p0) fcfg.maxDistance fcfg.minDistance, ?_, ?_⟩
        · unfold baselineOf divide
          rw [if_neg (not_not.2 h0)]
          split
          · rfl
          · split <;> rfl
        · show (if (baselineOf ri.p3 ri.p0).nonPositive = true then M.throw else M.modify _ : M (Tracker I ℚ) Unit) s = _
          rw [if_neg h3]; rfl
  · rw [if_neg fun h => hf h.1]
    exact Or.inr (Or.inl ⟨hf, rfl⟩)

theorem admitted_none {vertical : ℚ} {d : DistanceFilter ℚ} (h : d.fxB = none) (o : Observation ℚ) :
    admitted vertical (some d) o = false := by
  rw [← Bool.not_eq_true]
  intro hc
  obtain ⟨-, -, x, hx, -⟩ := admitted_iff.1 hc
  rw [h] at hx
  cases hx

theorem within_none {d : DistanceFilter ℚ} (h : d.fxB = none) (p : Pair ℚ) : within (some d) p = false := by
  rw [← Bool.not_eq_true]
  intro hc
  obtain ⟨-, x, hx, -⟩ := depthOk_iff.1 hc
  rw [h] at hx
  cases hx

/-- The node between callbacks with uncalibrated cameras. -/
def Blind (s : Finder I) : Prop :=
  ∃ os, Holds s.tracker os ∧ s.alive = true ∧
    (s.tracker.frameNumber = -1 ∨ ∃ d, s.tracker.distanceFilter = some d ∧ d.fxB = none)

theorem blind_step {v : Vision I ℚ} (hv : v.Sound) (cfg : TrackerConfig ℚ) (fcfg : FinderConfig ℚ) {s : Finder I} (h : Blind s)
    (f : StereoInput I) (hst : fcfg.publishStats = false ∧ fcfg.printStats = false) (hpp : fcfg.publishPoints = false)
    (he : fcfg.distanceEnabled = true) (h0 : f.rightInfo.p0 = 0) :
    Blind (stereoCallback v cfg fcfg f.left f.right f.leftInfo f.rightInfo s).2 ∧
    ((stereoCallback v cfg fcfg f.left f.right f.leftInfo f.rightInfo s).1 = .throws ∨
      ∃ p, (stereoCallback v cfg fcfg f.left f.right f.leftInfo f.rightInfo s).1 = .ok p ∧ p.features = []) := by
  obtain ⟨os, h, ha, hd⟩ := h
  obtain ⟨tr, al⟩ := s
  dsimp only at ha h hd
  subst ha
  -- a frame with a filter that accepts nothing
  have main : ∀ (tr : Tracker I ℚ), Holds tr os → (∃ d, tr.distanceFilter = some d ∧ d.fxB = none) →
      ∀ m : M (Finder I) Published,
      m = (do
        let s ← M.get
        let r ← onTracker (process (v.reading s.alive) cfg f.left f.right)
        M.modify fun s => { s with alive := false }
        let p ← M.lift (messages fcfg r.1 r.2 f.leftInfo f.rightInfo)
        M.modify fun s => { s with alive := true }
        pure p) →
      Blind (m ⟨tr, true⟩).2 ∧ ((m ⟨tr, true⟩).1 = .throws ∨ ∃ p, (m ⟨tr, true⟩).1 = .ok p ∧ p.features = []) := by
    rintro tr h ⟨d, hd, hx⟩ m rfl
    rw [M.get_bind, M.bind_run]
    have e2 : onTracker (process (v.reading true) cfg f.left f.right) ⟨tr, true⟩ =
      ((process v cfg f.left f.right tr).1, ⟨(process v cfg f.left f.right tr).2, true⟩) := rfl
    dsimp only
    rw [e2]
    rcases step hv cfg h f.left f.right with ⟨h1, os', h', -, -, hdf⟩ | ⟨hyp, ps, st, s', he, hp, -, h'⟩
    · rw [h1]
      exact ⟨⟨os', h', rfl, Or.inr ⟨d, hdf.trans hd, hx⟩⟩, Or.inl rfl⟩
    · have hnil : hyp.filter (admitted cfg.vertical tr.distanceFilter) ++ fresh tr.nextMatchId ps = [] := by
        obtain ⟨_, _, kl, kr, idx, costs, -, -, -, -, hps, -⟩ := hp.parts
        rw [hd] at hps ⊢
        rw [List.filter_eq_nil_iff.2 (fun o _ => by rw [admitted_none hx]; exact Bool.false_ne_true)]
        rw [List.filter_eq_nil_iff.2 (fun o _ => by rw [within_none hx]; exact Bool.false_ne_true)] at hps
        rw [hps]
        rfl
      rw [he]
      dsimp only
      rw [hnil] at h' ⊢
      obtain ⟨points, hm, -⟩ := messages_spec fcfg [] st f.leftInfo f.rightInfo hst (fun e => absurd e (by rw [hpp]; simp))
      rw [M.modify_bind, hm, M.lift_ok_bind, M.modify_bind]
      refine ⟨⟨[], h', rfl, Or.inr ⟨d, ?_, hx⟩⟩, Or.inr ⟨_, rfl, rfl⟩⟩
      show s'.distanceFilter = some d
      rw [hp.state]
      exact hd
  unfold stereoCallback
  rw [M.bind_run]
  have e : onTracker (setupDistanceFilter fcfg f.leftInfo f.rightInfo) ⟨tr, true⟩ =
    ((setupDistanceFilter fcfg f.leftInfo f.rightInfo tr).1, ⟨(setupDistanceFilter fcfg f.leftInfo f.rightInfo tr).2, true⟩) := rfl
  rw [e]
  rcases setup_zero fcfg f.leftInfo f.rightInfo tr he h0 with hs | ⟨hf, hs⟩ | ⟨d, hx, hs⟩
  · rw [hs]
    exact ⟨⟨os, h, rfl, hd⟩, Or.inl rfl⟩
  · rw [hs]
    exact main tr h (hd.resolve_left hf) _ rfl
  · rw [hs]
    exact main { tr with distanceFilter := some d } ⟨h.track, h.increasing, h.below, h.frame, h.next, h.nonneg, h.empty⟩  ⟨d, rfl, hx⟩
      _ rfl

/-- C143. With the distance filter enabled and uncalibrated cameras (`P[0] = 0` in every message), the node may accept the camera
parameters, but then it never publishes a feature. -/
theorem C143_blind {v : Vision I ℚ} (hv : v.Sound) (cfg : TrackerConfig ℚ) (fcfg : FinderConfig ℚ)
    (hst : fcfg.publishStats = false ∧ fcfg.printStats = false) (hpp : fcfg.publishPoints = false) (he : fcfg.distanceEnabled = true)
    (frames : List (StereoInput I)) (h0 : ∀ f ∈ frames, f.rightInfo.p0 = 0) (j : Nat) (o : Outcome Published)
    (ho : (runFinder v cfg fcfg frames (Finder.init none)).1[j]? = some o) :
    o = .throws ∨ ∃ p, o = .ok p ∧ p.features = [] := by
  have key : ∀ (frames : List (StereoInput I)) (s : Finder I), Blind s → (∀ f ∈ frames, f.rightInfo.p0 = 0) →
      ∀ (j : Nat) (o : Outcome Published), (runFinder v cfg fcfg frames s).1[j]? = some o →
      o = .throws ∨ ∃ p, o = .ok p ∧ p.features = [] := by
    intro frames
    induction frames with
    | nil => intro s _ _ j o h; simp [runFinder] at h
    | cons f fs ih =>
      intro s hs h0 j o ho
      obtain ⟨h1, h2⟩ := blind_step hv cfg fcfg hs f hst hpp he (h0 f List.mem_cons_self)
      have hr : (runFinder v cfg fcfg (f :: fs) s).1 = (stereoCallback v cfg fcfg f.left f.right f.leftInfo f.rightInfo s).1 ::
        (runFinder v cfg fcfg fs (stereoCallback v cfg fcfg f.left f.right f.leftInfo f.rightInfo s).2).1 := rfl
      rw [hr] at ho
      cases j with
      | zero =>
        rw [List.getElem?_cons_zero, Option.some_inj] at ho
        subst ho
        exact h2
      | succ j =>
        rw [List.getElem?_cons_succ] at ho
        exact ih _ h1 (fun f hf => h0 f (List.mem_cons_of_mem _ hf)) j o ho
  exact key frames _ ⟨[], holds_init none, rfl, Or.inl rfl⟩ h0 j o ho

/-- The numbers of features published for the images 0, 1 and 2 by the node with the distance filter, for the projection matrix `p0`,
`p3` of the right camera. -/
def filtered (p3 p0 : ℚ) : List (Outcome Nat) :=
  (runFinder (moving false) movingConfig ⟨true, 1000, 0, false, false, false⟩ ([0, 1, 2].map fun n =>
    ⟨(n, true), (n, false), infoOf true, ⟨!![500, 0, 320; 0, 500, 240; 0, 0, 1], p0, p3⟩⟩) (Finder.init none)).1.map fun o =>
      o >>= fun p => .ok p.features.length

-- calibrated: features; negative baseline: exceptions; uncalibrated: no exceptions and no features
example : filtered (-50) 500 = [.ok 1, .ok 1, .ok 2] ∧ filtered 50 500 = [.throws, .throws, .throws] ∧
    filtered 0 0 = [.ok 0, .ok 0, .ok 0] := by
  refine ⟨?_, ?_, ?_⟩ <;> decide +kernel

end Stereo

end Serpent
