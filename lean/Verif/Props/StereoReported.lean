import Verif.Props.StereoTrackerWitness

/-!
# Callbacks of the stereo node that report statistics (C94)
-/

namespace Serpent

namespace Stereo

variable {I : Type}

/-- The callback counts the frame: the images have the same size and, if a distance filter is to be made, the camera parameters
allow one. -/
def Counts (v : Vision I ℚ) (fcfg : FinderConfig ℚ) (f : StereoInput I) : Prop :=
  v.size f.left = v.size f.right ∧
    (fcfg.distanceEnabled = true → f.leftInfo.intrinsic 0 0 = f.rightInfo.intrinsic 0 0 ∧ GoodBaseline f)

theorem toStatsMsg_cases (st : Stats) : toStatsMsg st = .ok st ∨ toStatsMsg st = .ub := by
  unfold toStatsMsg
  split
  · exact Or.inl rfl
  · exact Or.inr rfl

theorem messages_reported (fcfg : FinderConfig ℚ) (os : List (Observation ℚ)) (st : Stats) (li ri : CameraInfo ℚ)
    (hb : fcfg.publishPoints = true → 0 < -ri.p3 / ri.p0) :
    (∃ p, messages fcfg (ofObs os) st li ri = .ok p) ∨
      (messages fcfg (ofObs os) st li ri = .ub ∧ (fcfg.printStats = true ∨ fcfg.publishStats = true) ∧ toStatsMsg st = .ub) := by
  have hrest (stats : Option Stats) : ∃ p, ((if fcfg.publishPoints then
      if (baselineOf ri.p3 ri.p0).nonPositive = true then .throws
      else pointMessage (ofObs os) li.intrinsic (baselineOf ri.p3 ri.p0) >>= fun ps => .ok (some ps)
    else .ok none) >>= fun points => toFeatures (ofObs os) >>= fun features => Outcome.ok (Published.mk features stats points)) =
      .ok p := by
    by_cases hp : fcfg.publishPoints = true
    · rw [if_pos hp, baselineOf_good (hb hp), if_neg (by unfold Division.nonPositive; simpa using hb hp)]
      unfold pointMessage
      dsimp only
      rw [trackPoints_ofObs, Outcome.bind_ok, Outcome.bind_ok, Outcome.bind_ok, toFeatures_ofObs, Outcome.bind_ok]
      exact ⟨_, rfl⟩
    · rw [if_neg hp, Outcome.bind_ok, toFeatures_ofObs, Outcome.bind_ok]
      exact ⟨_, rfl⟩
  unfold messages printStatistics
  by_cases h1 : fcfg.printStats = true <;> by_cases h2 : fcfg.publishStats = true <;>
    rcases toStatsMsg_cases st with h | h <;> simp only [h1, h2, h, if_true, Outcome.bind_ok]
  all_goals first | exact Or.inl (hrest _) | exact Or.inr ⟨rfl, by simp, trivial⟩

theorem setup_counts (fcfg : FinderConfig ℚ) (f : StereoInput I) (s : Tracker I ℚ)
    (h : fcfg.distanceEnabled = true → f.leftInfo.intrinsic 0 0 = f.rightInfo.intrinsic 0 0 ∧ GoodBaseline f) :
    (setupDistanceFilter fcfg f.leftInfo f.rightInfo s).1 = .ok () := by
  unfold setupDistanceFilter
  rw [M.get_bind]
  by_cases h1 : s.frameNumber = -1 ∧ fcfg.distanceEnabled = true
  · obtain ⟨h2, h3⟩ := h h1.2
    have h3 : 0 < -f.rightInfo.p3 / f.rightInfo.p0 := h3
    rw [if_pos h1, if_neg (by simpa using h2)]
    show ((if (baselineOf f.rightInfo.p3 f.rightInfo.p0).nonPositive = true then M.throw else M.modify _ : M (Tracker I ℚ) Unit) s).1
      = .ok ()
    rw [baselineOf_good h3, if_neg (by unfold Division.nonPositive; simpa using h3)]
    rfl
  · rw [if_neg h1]; rfl

/-- What one callback does, whether it reports statistics or not. -/
theorem callback_reported {v : Vision I ℚ} (hv : v.Sound) (cfg : TrackerConfig ℚ) (fcfg : FinderConfig ℚ) {s : Finder I}
    {os : List (Observation ℚ)} (h : Holds s.tracker os) (ha : s.alive = true) (f : StereoInput I)
    (hb : fcfg.publishPoints = true → GoodBaseline f) :
    ((stereoCallback v cfg fcfg f.left f.right f.leftInfo f.rightInfo s).1 = .ub ∧
      (fcfg.printStats = true ∨ fcfg.publishStats = true) ∧ s.tracker.frameNumber = -1) ∨
    ((stereoCallback v cfg fcfg f.left f.right f.leftInfo f.rightInfo s).1 ≠ .ub ∧
      (stereoCallback v cfg fcfg f.left f.right f.leftInfo f.rightInfo s).2.alive = true ∧
      (∃ os', Holds (stereoCallback v cfg fcfg f.left f.right f.leftInfo f.rightInfo s).2.tracker os') ∧
      s.tracker.frameNumber ≤ (stereoCallback v cfg fcfg f.left f.right f.leftInfo f.rightInfo s).2.tracker.frameNumber ∧
      (Counts v fcfg f →
        0 ≤ (stereoCallback v cfg fcfg f.left f.right f.leftInfo f.rightInfo s).2.tracker.frameNumber)) := by
  unfold stereoCallback
  obtain ⟨tr, al⟩ := s
  dsimp only at ha h
  subst ha
  obtain ⟨hub, df, hs⟩ := setup_spec fcfg f.leftInfo f.rightInfo tr
  have hh : Holds { tr with distanceFilter := df } os :=
    ⟨h.track, h.increasing, h.below, h.frame, h.next, h.nonneg, h.empty⟩
  have hfr := h.frame
  rw [M.bind_run]
  have e : onTracker (setupDistanceFilter fcfg f.leftInfo f.rightInfo) ⟨tr, true⟩ =
    ((setupDistanceFilter fcfg f.leftInfo f.rightInfo tr).1, ⟨(setupDistanceFilter fcfg f.leftInfo f.rightInfo tr).2, true⟩) := rfl
  rw [e, hs]
  cases hr : (setupDistanceFilter fcfg f.leftInfo f.rightInfo tr).1 with
  | ub => exact absurd hr hub
  | throws =>
    refine Or.inr ⟨by simp, rfl, ⟨os, hh⟩, le_refl _, fun hc => ?_⟩
    have := setup_counts fcfg f tr hc.2
    rw [hr] at this
    cases this
  | ok u =>
    dsimp only
    rw [M.get_bind, M.bind_run]
    have e2 : onTracker (process (v.reading true) cfg f.left f.right) ⟨{ tr with distanceFilter := df }, true⟩ =
      ((process v cfg f.left f.right { tr with distanceFilter := df }).1,
        ⟨(process v cfg f.left f.right { tr with distanceFilter := df }).2, true⟩) := rfl
    dsimp only
    rw [e2]
    have hfn := process_frame hv cfg { tr with distanceFilter := df } os hh.track f.left f.right
    rcases step hv cfg hh f.left f.right with ⟨h1, os', h', -, -, -⟩ | ⟨hyp, ps, st, s', he, hp, hsub, h'⟩
    · rw [h1]
      refine Or.inr ⟨by simp, rfl, ⟨os', h'⟩, ?_, fun hc => ?_⟩
      · show tr.frameNumber ≤ (process v cfg f.left f.right { tr with distanceFilter := df }).2.frameNumber
        rw [hfn]
        dsimp only
        split <;> omega
      · show 0 ≤ (process v cfg f.left f.right { tr with distanceFilter := df }).2.frameNumber
        rw [hfn, if_pos hc.1]
        dsimp only
        omega
    · rw [he]
      dsimp only
      rw [M.modify_bind]
      have hs' : s'.frameNumber = tr.frameNumber + 1 := by rw [hp.state]
      rcases messages_reported fcfg (hyp.filter (admitted cfg.vertical df) ++ fresh tr.nextMatchId ps) st
        f.leftInfo f.rightInfo hb with ⟨p, hm⟩ | ⟨hm, hst, hu⟩
      · rw [hm, M.lift_ok_bind, M.modify_bind]
        refine Or.inr ⟨by simp, rfl, ⟨_, h'⟩, ?_, fun _ => ?_⟩
        · show tr.frameNumber ≤ s'.frameNumber
          omega
        · show 0 ≤ s'.frameNumber
          omega
      · rw [hm]
        refine Or.inl ⟨rfl, hst, ?_⟩
        show tr.frameNumber = -1
        obtain ⟨newL, newR, kl, kr, idx, costs, -, -, -, -, -, -, hk⟩ := hp.parts
        have h2 := hp.trackedKp
        by_contra hne
        unfold toStatsMsg at hu
        rw [hk, h2, if_pos (by dsimp only; omega), if_pos (by dsimp only; omega)] at hu
        cases hu

theorem reported_at {v : Vision I ℚ} (hv : v.Sound) (cfg : TrackerConfig ℚ) (fcfg : FinderConfig ℚ) :
    ∀ (frames : List (StereoInput I)) (_ : fcfg.publishPoints = true → ∀ f ∈ frames, GoodBaseline f) (s : Finder I)
      (os : List (Observation ℚ)), Holds s.tracker os → s.alive = true →
    ∀ (j : Nat), (runFinder v cfg fcfg frames s).1[j]? = some .ub →
      (∀ i < j, (runFinder v cfg fcfg frames s).1[i]? ≠ some .ub) →
      (fcfg.printStats = true ∨ fcfg.publishStats = true) ∧ s.tracker.frameNumber = -1 ∧
        ∀ i < j, ∀ f, frames[i]? = some f → ¬Counts v fcfg f := by
  intro frames
  induction frames with
  | nil => intro _ s os _ _ j h; simp [runFinder] at h
  | cons f fs ih =>
    intro hb s os h ha j ho hfirst
    have hr : (runFinder v cfg fcfg (f :: fs) s).1 = (stereoCallback v cfg fcfg f.left f.right f.leftInfo f.rightInfo s).1 ::
      (runFinder v cfg fcfg fs (stereoCallback v cfg fcfg f.left f.right f.leftInfo f.rightInfo s).2).1 := rfl
    rw [hr] at ho hfirst
    have hc := callback_reported hv cfg fcfg h ha f (fun e => hb e f List.mem_cons_self)
    cases j with
    | zero =>
      rw [List.getElem?_cons_zero, Option.some_inj] at ho
      rcases hc with ⟨-, h1, h2⟩ | ⟨h1, -⟩
      · exact ⟨h1, h2, fun i hi => absurd hi (Nat.not_lt_zero i)⟩
      · exact absurd ho h1
    | succ j =>
      rcases hc with ⟨h1, -⟩ | ⟨-, ha', ⟨os', h'⟩, hmono, hcount⟩
      · exact absurd (by rw [List.getElem?_cons_zero, h1]) (hfirst 0 (by omega))
      · rw [List.getElem?_cons_succ] at ho
        obtain ⟨h1, h2, h3⟩ := ih (fun e g hg => hb e g (List.mem_cons_of_mem _ hg)) _ os' h' ha' j ho
          (fun i hi he => hfirst (i + 1) (by omega) (by rw [List.getElem?_cons_succ]; exact he))
        have := h.frame
        refine ⟨h1, by omega, fun i hi g hg => ?_⟩
        cases i with
        | zero =>
          rw [List.getElem?_cons_zero, Option.some_inj] at hg
          subst hg
          intro hcn
          have := hcount hcn
          omega
        | succ i => exact h3 i (by omega) g (by rw [List.getElem?_cons_succ] at hg; exact hg)

/-- C94 (partial: points are published only with a positive baseline). The statistics that are read without a value are the only
undefined behaviour, and only of the first frame that counts: if a callback is the first with undefined behaviour, statistics are
printed or published, and no callback before had images of the same size and camera parameters that the node accepts. -/
theorem C94_only_first_partial (v : Vision I ℚ) (hv : v.Sound) (cfg : TrackerConfig ℚ) (fcfg : FinderConfig ℚ)
    (df : Option (DistanceFilter ℚ)) (frames : List (StereoInput I))
    (hb : fcfg.publishPoints = true → ∀ f ∈ frames, GoodBaseline f) (j : Nat)
    (h : (runFinder v cfg fcfg frames (Finder.init df)).1[j]? = some .ub)
    (hfirst : ∀ i < j, (runFinder v cfg fcfg frames (Finder.init df)).1[i]? ≠ some .ub) :
    (fcfg.printStats = true ∨ fcfg.publishStats = true) ∧ ∀ i < j, ∀ f, frames[i]? = some f → ¬Counts v fcfg f := by
  obtain ⟨h1, -, h2⟩ := reported_at hv cfg fcfg frames hb (Finder.init df) [] (holds_init df) rfl j h hfirst
  exact ⟨h1, h2⟩

/-- A first frame with camera parameters of different focal lengths throws; the second is the first that counts. -/
example : let bad : StereoInput (Nat × Bool) := ⟨(0, true), (0, false), infoOf true, ⟨!![400, 0, 320; 0, 400, 240; 0, 0, 1], 400, -40⟩⟩
    (runFinder (moving false) movingConfig ⟨true, 1000, 0, false, false, true⟩ (bad :: inputsOf true [0]) (Finder.init none)).1.map
      (fun o => o >>= fun _ => .ok ()) = [.throws, .ub] ∧
    ∀ f ∈ inputsOf true [0], Counts (moving false) ⟨true, 1000, 0, false, false, true⟩ f := by
  refine ⟨by decide +kernel, ?_⟩
  intro f hf
  obtain ⟨n, -, rfl⟩ := List.mem_map.1 hf
  refine ⟨rfl, fun _ => ⟨rfl, ?_⟩⟩
  show (0 : ℚ) < - -50 / 500
  norm_num

end Stereo

end Serpent
