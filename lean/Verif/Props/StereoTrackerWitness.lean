import Verif.Props.StereoFinder

/-!
# Concrete histories of the stereo feature tracker; what fails for C89, C91, C92, C94
-/

namespace Serpent

namespace Stereo

/-! ### The assumptions about the vision algorithms hold for the matcher of the code -/

section

variable {K : Type} [Field K] [LinearOrder K] [FloorRing K]

/-- The vision algorithms with the matcher of the code; images are 8 bit images. (The tracker only calls it for images of
equal size.) -/
def matcherVision (m : Matcher K) (detect : Image → Outcome (List (KeyPoint K)))
    (flow : Image → Image → List (K × K) → Outcome (List (Nat × K × K))) : Vision {i : Image // i.is8U = true} K where
  size i := (i.1.rows, i.1.cols)
  detect i := detect i.1
  flow i j := flow i.1 j.1
  indices l r i j :=
    if i.1.rows = j.1.rows ∧ i.1.cols = j.1.cols then m.keypointIndices l r i.1 j.1 true else .throws

/-- C50, C51. With the SAD or SSD cost, any detector and any optical flow that gives one result per point, the assumptions
of the histories hold. -/
theorem C50_matcher_sound [IsStrictOrderedRing K] (m : Matcher K) (hgen : m.generate = generateSad ∨ m.generate = generateSsd)
    (detect : Image → Outcome (List (KeyPoint K))) (flow : Image → Image → List (K × K) → Outcome (List (Nat × K × K)))
    (h1 : ∀ i, detect i ≠ .ub) (h2 : ∀ i j ps, flow i j ps ≠ .ub)
    (h3 : ∀ i j ps rs, flow i j ps = .ok rs → rs.length = ps.length) : (matcherVision m detect flow).Sound where
  detect i := h1 i.1
  flow i j := h2 i.1 j.1
  flowLength i j := h3 i.1 j.1
  indices l r i j := by
    show (if i.1.rows = j.1.rows ∧ i.1.cols = j.1.cols then _ else Outcome.throws) ≠ .ub
    by_cases h : i.1.rows = j.1.rows ∧ i.1.cols = j.1.cols
    · rw [if_pos h]
      obtain ⟨idx, costs, he⟩ := C54_total m l r i.1 j.1 true hgen h i.2 j.2
      rw [he]; simp
    · rw [if_neg h]; simp
  indicesLength l r i j idx costs he := by
    have he : (if i.1.rows = j.1.rows ∧ i.1.cols = j.1.cols then m.keypointIndices l r i.1 j.1 true else .throws) =
      .ok (idx, costs) := he
    by_cases h : i.1.rows = j.1.rows ∧ i.1.cols = j.1.cols
    · rw [if_pos h] at he
      obtain ⟨a, b, -⟩ := C54_lengths m l r i.1 j.1 idx costs he
      exact ⟨a, b⟩
    · rw [if_neg h] at he; cases he
  indicesRange l r i j idx costs he := by
    have he : (if i.1.rows = j.1.rows ∧ i.1.cols = j.1.cols then m.keypointIndices l r i.1 j.1 true else .throws) =
      .ok (idx, costs) := he
    by_cases h : i.1.rows = j.1.rows ∧ i.1.cols = j.1.cols
    · rw [if_pos h] at he
      exact (C54_lengths m l r i.1 j.1 idx costs he).2.2
    · rw [if_neg h] at he; cases he

end

/-! ### A moving camera -/

/-- A keypoint in the row `y`. -/
def movingKp (x y : ℚ) : KeyPoint ℚ := ⟨x, y, 1, 0, 0, 0, 0⟩

/-- Images are numbered, and left or right. Everything moves to the right by one per image. The detector finds a feature in
image 0 and another one in image 2; matching image 1 throws if `fault`. A feature at 100 or more is lost. -/
def moving (fault : Bool) : Vision (Nat × Bool) ℚ where
  size _ := (480, 640)
  detect i := .ok (if i.1 = 0 then [movingKp (if i.2 then 10 else 5) 7] else if i.1 = 2 then [movingKp (if i.2 then 50 else 30) 9] else [])
  flow i j ps := .ok (ps.map fun p => (if p.1 + ((j.1 : ℚ) - i.1) < 100 then 1 else 0, p.1 + ((j.1 : ℚ) - i.1), p.2))
  indices l r i _ :=
    if fault = true ∧ i.1 = 1 then .throws
    else .ok (l.map fun _ => if r.length > 0 then 0 else -1, l.map fun _ => 3)

theorem moving_sound (fault : Bool) : (moving fault).Sound where
  detect i := by simp [moving]
  flow i j ps := by simp [moving]
  flowLength i j ps rs h := by rw [← Outcome.ok.inj h]; simp
  indices l r i j := by
    show (if fault = true ∧ i.1 = 1 then _ else _) ≠ _
    split <;> simp
  indicesLength l r i j idx costs h := by
    have h : (if fault = true ∧ i.1 = 1 then Outcome.throws else .ok (l.map fun _ => if r.length > 0 then (0 : Int) else -1,
      l.map fun _ => (3 : ℚ))) = .ok (idx, costs) := h
    split at h
    · cases h
    · cases Outcome.ok.inj h
      simp
  indicesRange l r i j idx costs h := by
    have h : (if fault = true ∧ i.1 = 1 then Outcome.throws else .ok (l.map fun _ => if r.length > 0 then (0 : Int) else -1,
      l.map fun _ => (3 : ℚ))) = .ok (idx, costs) := h
    split at h
    · cases h
    · cases Outcome.ok.inj h
      intro k hk
      obtain ⟨x, -, hx⟩ := List.mem_map.1 hk
      by_cases hr : r.length > 0
      · rw [if_pos hr] at hx
        exact Or.inr ⟨0, by rw [← hx]; rfl, hr⟩
      · rw [if_neg hr] at hx
        exact Or.inl hx.symm

/-- Vertical threshold 2, minimum distance 3, cost below 10. -/
def movingConfig : TrackerConfig ℚ := ⟨2, 9, 10⟩

/-- The frames with the given image numbers. -/
def framesOf (ns : List Nat) : List ((Nat × Bool) × (Nat × Bool)) := ns.map fun n => ((n, true), (n, false))

/-- The outputs as features. -/
def outputs (fault : Bool) (ns : List Nat) : List (Outcome (List BackEnd.Feature)) :=
  ((run (moving fault) movingConfig (framesOf ns) (Tracker.init none)).1).map fun o => o >>= fun r => toFeatures r.1

-- the feature 0 moves, and the feature 1 is new in the third frame; later the second and then the first are lost
example : outputs false [0, 1, 2, 60, 95] =
    [.ok [⟨0, 10, 7, 5, 7⟩], .ok [⟨0, 11, 7, 6, 7⟩], .ok [⟨0, 12, 7, 7, 7⟩, ⟨1, 50, 9, 30, 9⟩],
      .ok [⟨0, 70, 7, 65, 7⟩], .ok []] := by decide +kernel

/-- C89 fails after an exception of the matcher: the exact positions of the feature are `10 + n` and `5 + n` in image `n`; the
second frame throws, and in the third frame (image 3) the feature is reported at 14 and 9 although the flow from the first to
the third images finds it at 13 and 8. The tracked part of the second frame is stored, but its images are not. -/
theorem C89_fails_after_exception :
    ∃ (v : Vision (Nat × Bool) ℚ) (cfg : TrackerConfig ℚ) (frames : List ((Nat × Bool) × (Nat × Bool)))
      (o o' : Observation ℚ) (st st' : Stats), v.Sound ∧
      (run v cfg frames (Tracker.init none)).1 = [.ok (ofObs [o], st), .throws, .ok (ofObs [o'], st')] ∧ o.id = o'.id ∧
      frames = [((0, true), (0, false)), ((1, true), (1, false)), ((3, true), (3, false))] ∧
      v.flow (0, true) (3, true) [(o.left.x, o.left.y)] = .ok [(1, o.left.x + 3, o.left.y)] ∧
      v.flow (0, false) (3, false) [(o.right.x, o.right.y)] = .ok [(1, o.right.x + 3, o.right.y)] ∧
      o'.left.x = o.left.x + 4 ∧ o'.right.x = o.right.x + 4 := by
  refine ⟨moving true, movingConfig, framesOf [0, 1, 3], ⟨0, movingKp 10 7, movingKp 5 7, 3⟩, ⟨0, movingKp 14 7, movingKp 9 7, 3⟩,
    ⟨0, 0, -1, none, 0, (1, 1), none, 1, 1, [0]⟩, ⟨2, 0, 0, some (1, 1), 1, (0, 0), some (0, 0), 0, 1, [0]⟩, moving_sound true,
    by decide +kernel, rfl, rfl, by decide +kernel, by decide +kernel, by decide +kernel, by decide +kernel⟩

/-! ### New matches without disparity -/

/-- One keypoint at the bright pixel. -/
def sameVision : Vision {i : Image // i.is8U = true} ℚ :=
  matcherVision (pixelMatcher .bidirectional) (fun _ => .ok [pixelAt (13/2)]) (fun _ _ ps => .ok (ps.map fun p => (1, p)))

/-- C91 fails without a distance filter: the same image from both cameras gives a match with disparity zero, which is
published, and has no point. -/
theorem C91_fails_new :
    ∃ (v : Vision {i : Image // i.is8U = true} ℚ) (cfg : TrackerConfig ℚ) (frames : List (_ × _)) (o : Observation ℚ)
      (st : Stats), v.Sound ∧ (run v cfg frames (Tracker.init none)).1 = [.ok (ofObs [o], st)] ∧ o.right.x = o.left.x ∧
      ∀ A b, backproject ![o.left.x, o.right.x, (o.left.y + o.right.y) / 2] A b = .throws := by
  refine ⟨sameVision, movingConfig, [(⟨onePeak, rfl⟩, ⟨onePeak, rfl⟩)], ⟨0, pixelAt (13/2), pixelAt (13/2), 0⟩,
    ⟨0, 0, -1, none, 0, (1, 1), none, 1, 1, [0]⟩,
    C50_matcher_sound _ (Or.inl rfl) _ _ (by simp) (by simp) (by intro i j ps rs h; rw [← Outcome.ok.inj h]; simp),
    by decide +kernel, rfl, fun A b => (C56_zero_disparity _ _ _).1.2 rfl⟩

-- with a distance filter it is not reported
example : (run sameVision movingConfig [(⟨onePeak, rfl⟩, ⟨onePeak, rfl⟩)]
    (Tracker.init (some (.create 500 (1/10) 1000 0)))).1.map (fun o => o >>= fun r => toFeatures r.1) = [.ok []] := by
  decide +kernel

/-! ### Statistics of the first frame -/

/-- C92 fails for the first frame: the statistics have counts without a value, and publishing them is undefined. -/
theorem C92_fails_first :
    ∃ (v : Vision (Nat × Bool) ℚ) (cfg : TrackerConfig ℚ) (frames : List ((Nat × Bool) × (Nat × Bool))) (t : Track ℚ)
      (st : Stats), v.Sound ∧ (run v cfg frames (Tracker.init none)).1 = [.ok (t, st)] ∧ st.trackedKpCount = none ∧
      toStatsMsg st = .ub :=
  ⟨moving false, movingConfig, framesOf [0], ofObs [⟨0, movingKp 10 7, movingKp 5 7, 3⟩],
    ⟨0, 0, -1, none, 0, (1, 1), none, 1, 1, [0]⟩, moving_sound false, by decide +kernel, rfl, by decide +kernel⟩

example : ((run (moving false) movingConfig (framesOf [0, 1, 2]) (Tracker.init none)).1[2]?) =
    some (.ok (ofObs [⟨0, movingKp 12 7, movingKp 7 7, 3⟩, ⟨1, movingKp 50 9, movingKp 30 9, 3⟩],
      ⟨2, 1, 0, some (1, 1), 1, (1, 1), some (1, 1), 1, 2, [0, 1]⟩)) := by decide +kernel

/-! ### The node -/

/-- Camera parameters: focal length 500, baseline 1/10 (or -1/10). -/
def infoOf (good : Bool) : CameraInfo ℚ := ⟨!![500, 0, 320; 0, 500, 240; 0, 0, 1], 500, if good then -50 else 50⟩

/-- Messages with the given image numbers. -/
def inputsOf (good : Bool) (ns : List Nat) : List (StereoInput (Nat × Bool)) :=
  ns.map fun n => ⟨(n, true), (n, false), infoOf good, infoOf good⟩

/-- What the callbacks do: the number of features and points. -/
def published (stats points good : Bool) (ns : List Nat) : List (Outcome (Nat × Nat)) :=
  (runFinder (moving false) movingConfig ⟨false, 1000, 0, stats, points, false⟩ (inputsOf good ns) (Finder.init none)).1.map fun o =>
    o >>= fun p => .ok (p.features.length, (p.points.getD []).length)

example : published false true true [0, 1, 2] = [.ok (1, 1), .ok (1, 1), .ok (2, 2)] := by decide +kernel
example : ∀ f ∈ inputsOf true [0, 1, 2], GoodBaseline f := by
  intro f hf
  obtain ⟨n, -, rfl⟩ := List.mem_map.1 hf
  show (0 : ℚ) < - -50 / 500
  norm_num

/-- C94 fails: the camera parameters have no positive baseline, and points are to be published. The first callback throws after
the images are processed, so the node does not keep them; the second callback reads them. -/
theorem C94_fails_released :
    ∃ (v : Vision (Nat × Bool) ℚ) (cfg : TrackerConfig ℚ) (fcfg : FinderConfig ℚ) (frames : List (StereoInput (Nat × Bool))),
      v.Sound ∧ fcfg.publishStats = false ∧ fcfg.printStats = false ∧
      (runFinder v cfg fcfg frames (Finder.init none)).1.map (fun o => o >>= fun _ => .ok ()) = [.throws, .ub] :=
  ⟨moving false, movingConfig, ⟨false, 1000, 0, false, true, false⟩, inputsOf false [0, 1], moving_sound false, rfl, rfl, by decide +kernel⟩

/-- C94 fails: with statistics published, the first callback reads counts without a value. -/
theorem C94_fails_statistics :
    ∃ (v : Vision (Nat × Bool) ℚ) (cfg : TrackerConfig ℚ) (fcfg : FinderConfig ℚ) (frames : List (StereoInput (Nat × Bool))),
      v.Sound ∧ (∀ f ∈ frames, GoodBaseline f) ∧
      (runFinder v cfg fcfg frames (Finder.init none)).1.map (fun o => o >>= fun _ => .ok ()) = [.ub] := by
  refine ⟨moving false, movingConfig, ⟨false, 1000, 0, true, false, false⟩, inputsOf true [0], moving_sound false, ?_,
    by decide +kernel⟩
  intro f hf
  obtain ⟨n, -, rfl⟩ := List.mem_map.1 hf
  show (0 : ℚ) < - -50 / 500
  norm_num

/-- C94 fails: also if the statistics are only printed. Whatever the images and the parameters, if the first callback succeeds
without statistics, it reads counts without a value if they are printed or published. -/
theorem C94_fails_printed {I : Type} (v : Vision I ℚ) (hv : v.Sound) (cfg : TrackerConfig ℚ) (fcfg : FinderConfig ℚ)
    (hp : fcfg.printStats = true ∨ fcfg.publishStats = true) (df : Option (DistanceFilter ℚ)) (f : StereoInput I) (p : Published)
    (h : (runFinder v cfg { fcfg with printStats := false, publishStats := false } [f] (Finder.init df)).1 = [.ok p]) :
    (runFinder v cfg fcfg [f] (Finder.init df)).1 = [.ub] := by
  have hb : (stereoCallback v cfg { fcfg with printStats := false, publishStats := false } f.left f.right f.leftInfo f.rightInfo
      (Finder.init df)).1 = .ok p := (List.cons.inj h).1
  show [(stereoCallback v cfg fcfg f.left f.right f.leftInfo f.rightInfo (Finder.init df)).1] = [.ub]
  congr 1
  obtain ⟨-, df', hs⟩ := setup_spec fcfg f.leftInfo f.rightInfo (Tracker.init df : Tracker I ℚ)
  have hs' : setupDistanceFilter { fcfg with printStats := false, publishStats := false } f.leftInfo f.rightInfo (Tracker.init df : Tracker I ℚ) =
    setupDistanceFilter fcfg f.leftInfo f.rightInfo (Tracker.init df) := rfl
  unfold stereoCallback at hb ⊢
  rw [M.bind_run] at hb ⊢
  have e (g : FinderConfig ℚ) : onTracker (setupDistanceFilter g f.leftInfo f.rightInfo) (Finder.init df : Finder I) =
    ((setupDistanceFilter g f.leftInfo f.rightInfo (Tracker.init df : Tracker I ℚ)).1,
      ⟨(setupDistanceFilter g f.leftInfo f.rightInfo (Tracker.init df : Tracker I ℚ)).2, true⟩) := rfl
  rw [e, hs'] at hb
  rw [e]
  rw [hs] at hb ⊢
  cases hr : (setupDistanceFilter fcfg f.leftInfo f.rightInfo (Tracker.init df : Tracker I ℚ)).1 with
  | ub => rw [hr] at hb
  | throws => rw [hr] at hb; cases hb
  | ok u =>
    rw [hr] at hb
    dsimp only at hb ⊢
    rw [M.get_bind, M.bind_run] at hb ⊢
    have e2 : onTracker (process (v.reading true) cfg f.left f.right) (⟨{ (Tracker.init df : Tracker I ℚ) with distanceFilter := df' }, true⟩ : Finder I) =
      ((process v cfg f.left f.right (Tracker.init df')).1, ⟨(process v cfg f.left f.right (Tracker.init df')).2, true⟩) := rfl
    dsimp only at hb ⊢
    rw [e2] at hb ⊢
    have hm := fun t st => C92_message v hv cfg df' [(f.left, f.right)] 0 t st
    have hst := fun t st => C92_statistics v hv cfg df' [(f.left, f.right)] 0 t st
    have hrun : (run v cfg [(f.left, f.right)] (Tracker.init df')).1[0]? =
      some (process v cfg f.left f.right (Tracker.init df')).1 := rfl
    rw [hrun] at hm hst
    match hq : (process v cfg f.left f.right (Tracker.init df')).1, hb, hm, hst with
    | .ok (t, st), hb, hm, hst =>
      have h0 : st.frameNumber = 0 := by simpa using (hst t st rfl).1
      have hu : toStatsMsg st = .ub := (hm t st rfl).2 h0
      dsimp only
      rw [M.modify_bind]
      have hmsg : messages fcfg t st f.leftInfo f.rightInfo = .ub := by
        unfold messages printStatistics
        by_cases hq : fcfg.printStats = true
        · rw [if_pos hq, hu]
          rfl
        · rw [if_neg hq, Outcome.bind_ok, if_pos (hp.resolve_left hq), hu]
          rfl
      rw [hmsg]
      rfl

example : (published false false true [0] = [.ok (1, 0)]) ∧
    (runFinder (moving false) movingConfig ⟨false, 1000, 0, false, false, true⟩ (inputsOf true [0]) (Finder.init none)).1.map
      (fun o => o >>= fun _ => .ok ()) = [.ub] := by decide +kernel

end Stereo

end Serpent
