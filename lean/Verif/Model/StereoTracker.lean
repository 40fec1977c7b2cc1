import Verif.Model.Stereo
import Verif.Model.BackEnd

/-!
# Model of `StereoFeatureTracker` (stereo_feature_tracker.cpp) and of what `StereoFactorFinder` publishes

Simplifications (apply to the whole file):
* Images are elements of any type `I`. The feature detector (with its mask), the optical flow and the matcher are functions of
  the images and keypoints, collected in `Vision`; each may throw.
* The drawing of images is left out, with the data that only it uses (`all_sof_keypoints`, `f2f_matches`); it is in
  StereoDrawing.lean.
* A statistics member that is not assigned is `none`.
-/

namespace Serpent

namespace Stereo

open EigenRos (forLoop getAt)

variable {K : Type} [Field K] [LinearOrder K]

/-- The algorithms the tracker is built from. `flow previous current points` gives a status byte and a position per point;
`indices` the index of the right keypoint (or -1) and the cost per left keypoint. Called in stereo_feature_tracker.cpp:43-200.
-/
structure Vision (I K : Type) where
  size : I → Int × Int
  detect : I → Outcome (List (KeyPoint K))
  flow : I → I → List (K × K) → Outcome (List (Nat × K × K))
  indices : List (KeyPoint K) → List (KeyPoint K) → I → I → Outcome (List Int × List K)

/-- Configuration of the tracker: threshold of `stereo_filter`, square of `new_feature_dist_threshold`,
`stereo_match_cost_threshold`. Set by the constructor, stereo_feature_tracker.hpp. -/
structure TrackerConfig (K : Type) where
  vertical : K
  newFeatureSqrDist : K
  costThreshold : K

/-- `LRKeyPointMatches`, stereo_feature_tracker.hpp:71-79; `pairs` is the member `matches`. -/
structure Track (K : Type) where
  left : List (KeyPoint K)
  right : List (KeyPoint K)
  pairs : List (DMatch K)
  ids : List Int
deriving DecidableEq, Repr

/-- A default constructed `LRKeyPointMatches`. Source: stereo_feature_tracker.hpp:71-79. -/
def Track.empty : Track K := ⟨[], [], [], []⟩

/-- `Statistics`, stereo_feature_tracker.hpp:32-53. -/
structure Stats where
  frameNumber : Int
  maxMatchId : Int
  longestTrackedMatchId : Int
  trackedKpCount : Option (Nat × Nat)
  trackedMatchCount : Nat
  extractedKpCount : Nat × Nat
  filteredExtractedKpCount : Option (Nat × Nat)
  newMatchCount : Nat
  totalMatchCount : Nat
  matchIds : List Int
deriving DecidableEq, Repr

/-- Members of the tracker that change. `none` images: not processed a frame yet. Members of stereo_feature_tracker.hpp. -/
structure Tracker (I K : Type) where
  frameNumber : Int
  nextMatchId : Int
  images : Option (I × I)
  track : Track K
  distanceFilter : Option (DistanceFilter K)

/-- The constructor, stereo_feature_tracker.cpp:33-47. -/
def Tracker.init {I : Type} (distanceFilter : Option (DistanceFilter K)) : Tracker I K :=
  ⟨-1, 0, none, .empty, distanceFilter⟩

/-- `approximately_near`, stereo_feature_tracker.cpp:9-16. -/
def approximatelyNear (p q : KeyPoint K) (sqrDist : K) : Bool := (q.x - p.x) ^ 2 + (q.y - p.y) ^ 2 ≤ sqrDist

/-- `remove_close_keypoints`, stereo_feature_tracker.cpp:283-300; the two loops are written as a filter. -/
def removeClose (sqrDist : K) (kps references : List (KeyPoint K)) : List (KeyPoint K) :=
  kps.filter (fun kp => !references.any (fun r => approximatelyNear r kp sqrDist))

/-- `append_keypoint_matches`, stereo_feature_tracker.cpp:226-236. -/
def appendMatches (new track : Track K) : Outcome (Track K) :=
  forLoop new.pairs.length (fun i t =>
    getAt new.pairs i >>= fun m =>
    getAt new.ids i >>= fun id =>
    getAt new.left i >>= fun l =>
    getAt new.right i >>= fun r =>
    .ok ⟨t.left ++ [l], t.right ++ [r], t.pairs ++ [⟨t.left.length, t.right.length, m.distance⟩], t.ids ++ [id]⟩) track

/-- `create_filtered_new_matches` without match ids, stereo_feature_tracker.cpp:238-254. -/
def createNewMatches (costThreshold : K) (left right : List (KeyPoint K)) (indices : List Int) (costs : List K) :
    Outcome (Track K) :=
  forLoop left.length (fun i t =>
    getAt costs i >>= fun cost =>
    if cost < costThreshold then
      getAt indices i >>= fun j =>
      if j ≥ 0 then
        getAt left i >>= fun l =>
        indexInt right j >>= fun r =>
        .ok ⟨t.left ++ [l], t.right ++ [r], t.pairs ++ [⟨t.left.length, t.right.length, cost⟩], t.ids⟩
      else .ok t
    else .ok t) .empty

/-- `extract_matched_keypoints`, stereo_feature_tracker.cpp:262-272: the keypoints, and the matches with their new
indices. -/
def extractMatched (left right : List (KeyPoint K)) (ms : List (DMatch K)) :
    Outcome (List (KeyPoint K) × List (KeyPoint K) × List (DMatch K)) :=
  forLoop ms.length (fun i s =>
    getAt ms i >>= fun m =>
    indexInt left m.queryIdx >>= fun l =>
    indexInt right m.trainIdx >>= fun r =>
    .ok (s.1 ++ [l], s.2.1 ++ [r],
      s.2.2 ++ [⟨(s.1 ++ [l]).length - 1, (s.2.1 ++ [r]).length - 1, m.distance⟩])) ([], [], [])

/-- `extract_match_ids`, stereo_feature_tracker.cpp:274-281. -/
def extractIds (ids : List Int) (indices : List Nat) : Outcome (List Int) :=
  forLoop indices.length (fun k s =>
    getAt indices k >>= fun i =>
    getAt ids i >>= fun id => .ok (s ++ [id])) []

/-- The optical flow of one image, stereo_feature_tracker.cpp:307-329. Without previous keypoints it is not called. -/
def flowOf {I : Type} (v : Vision I K) (previous : Option I) (current : I) (kps : List (KeyPoint K)) :
    Outcome (List (Nat × K × K)) :=
  if kps.length > 0 then
    match previous with
    | some p => v.flow p current (kps.map fun kp => (kp.x, kp.y))
    | none => .throws
  else .ok []

/-- `track_previous_keypoints`, stereo_feature_tracker.cpp:302-357. -/
def trackPrevious {I : Type} (v : Vision I K) (s : Tracker I K) (left right : I) : Outcome (Track K) :=
  flowOf v (s.images.map (·.1)) left s.track.left >>= fun flowL =>
  flowOf v (s.images.map (·.2)) right s.track.right >>= fun flowR =>
  forLoop s.track.pairs.length (fun i t =>
    getAt s.track.pairs i >>= fun m =>
    indexInt flowL m.queryIdx >>= fun fl =>
    if fl.1 = 1 then
      indexInt flowR m.trainIdx >>= fun fr =>
      if fr.1 = 1 then
        indexInt s.track.left m.queryIdx >>= fun l =>
        indexInt s.track.right m.trainIdx >>= fun r =>
        getAt s.track.ids i >>= fun id =>
        .ok ⟨t.left ++ [{ l with x := fl.2.1, y := fl.2.2 }], t.right ++ [{ r with x := fr.2.1, y := fr.2.2 }],
          t.pairs ++ [⟨t.left.length, t.right.length, m.distance⟩], t.ids ++ [id]⟩
      else .ok t
    else .ok t) .empty

/-- stereo_feature_tracker.cpp:97-126, in `process`: the tracks of the previous frame and the new keypoints that are not close
to them. -/
def hypotheses {I : Type} (v : Vision I K) (cfg : TrackerConfig K) (s : Tracker I K) (left right : I)
    (newL newR : List (KeyPoint K)) : Outcome (Track K × List (KeyPoint K) × List (KeyPoint K)) :=
  if s.frameNumber > 0 then
    trackPrevious v s left right >>= fun t =>
    .ok (t, removeClose cfg.newFeatureSqrDist newL t.left, removeClose cfg.newFeatureSqrDist newR t.right)
  else .ok (.empty, newL, newR)

/-- stereo_feature_tracker.cpp:128-139, in `process`: filter the tracked matches. -/
def filterTracked {I : Type} (cfg : TrackerConfig K) (hyp : Track K) : M (Tracker I K) Unit := do
  let f ← M.lift (stereoMatchFilter cfg.vertical hyp.left hyp.right hyp.pairs)
  M.modify fun s => { s with track := { s.track with pairs := f.1 } }
  let ids ← M.lift (extractIds hyp.ids f.2)
  M.modify fun s => { s with track := { s.track with ids := ids } }
  let s ← M.get
  match s.distanceFilter with
  | none => pure ()
  | some d => do
    let f ← M.lift (d.filter hyp.left hyp.right s.track.pairs)
    M.modify fun s => { s with track := { s.track with pairs := f.1 } }
    let ids ← M.lift (extractIds s.track.ids f.2)
    M.modify fun s => { s with track := { s.track with ids := ids } }

/-- stereo_feature_tracker.cpp:155-157, in `process`: the keypoints of the tracked matches. -/
def keepTracked {I : Type} (hyp : Track K) : M (Tracker I K) Unit := do
  let s ← M.get
  let e ← M.lift (extractMatched hyp.left hyp.right s.track.pairs)
  M.modify fun s => { s with track := { s.track with left := e.1, right := e.2.1, pairs := e.2.2 } }

/-- stereo_feature_tracker.cpp:166-186, in `process`: the new matches. -/
def newMatches {I : Type} (v : Vision I K) (cfg : TrackerConfig K) (distanceFilter : Option (DistanceFilter K))
    (newL newR : List (KeyPoint K)) (left right : I) : Outcome (Track K) :=
  v.indices newL newR left right >>= fun r =>
  createNewMatches cfg.costThreshold newL newR r.1 r.2 >>= fun t =>
  match distanceFilter with
  | none => .ok t
  | some d =>
    d.filter t.left t.right t.pairs >>= fun f =>
    extractMatched t.left t.right f.1 >>= fun e =>
    .ok { t with left := e.1, right := e.2.1, pairs := e.2.2 }

/-- `process`, stereo_feature_tracker.cpp:53-220. -/
def process {I : Type} (v : Vision I K) (cfg : TrackerConfig K) (left right : I) : M (Tracker I K) (Track K × Stats) :=
  if v.size left ≠ v.size right then M.throw else do
  M.modify fun s => { s with frameNumber := s.frameNumber + 1 }
  let newL ← M.lift (v.detect left)
  let newR ← M.lift (v.detect right)
  let s ← M.get
  let h ← M.lift (hypotheses v cfg s left right newL newR)
  filterTracked cfg h.1
  let tracked ← M.get
  keepTracked h.1
  let n ← M.lift (newMatches v cfg s.distanceFilter h.2.1 h.2.2 left right)
  -- new match ids
  let n := { n with ids := n.ids ++ (List.range n.pairs.length).map fun i : Nat => s.nextMatchId + i }
  M.modify fun s => { s with nextMatchId := s.nextMatchId + n.pairs.length }
  let s' ← M.get
  let t ← M.lift (appendMatches n s'.track)
  M.modify fun s => { s with track := t }
  M.modify fun s => { s with images := some (left, right) }
  pure (t, {
    frameNumber := s.frameNumber
    maxMatchId := s'.nextMatchId - 1
    longestTrackedMatchId := tracked.track.ids.head?.getD (-1)
    trackedKpCount := if s.frameNumber > 0 then some (h.1.left.length, h.1.right.length) else none
    trackedMatchCount := tracked.track.pairs.length
    extractedKpCount := (newL.length, newR.length)
    filteredExtractedKpCount := if s.frameNumber > 0 then some (h.2.1.length, h.2.2.length) else none
    newMatchCount := n.pairs.length
    totalMatchCount := t.pairs.length
    matchIds := t.ids })

/-! ### stereo_factor_finder.cpp -/

/-- `to_ros(features, matches)`, stereo_factor_finder.cpp:145-158. -/
def toFeatures (t : Track ℚ) : Outcome (List BackEnd.Feature) :=
  forLoop t.pairs.length (fun i s =>
    getAt t.pairs i >>= fun m =>
    indexInt t.left m.queryIdx >>= fun l =>
    indexInt t.right m.trainIdx >>= fun r =>
    getAt t.ids i >>= fun id =>
    .ok (s ++ [⟨id, l.x, l.y, r.x, r.y⟩])) []

/-- `to_ros(statistics)`, stereo_factor_finder.cpp:160-175: copies every member; a member without a value is read. -/
def toStatsMsg (st : Stats) : Outcome Stats :=
  match st.trackedKpCount, st.filteredExtractedKpCount with
  | some _, some _ => .ok st
  | _, _ => .ub

/-- The parts of `sensor_msgs::CameraInfo` that the node uses: `K` and `P[0]`, `P[3]`. Read in stereo_factor_finder.cpp:337-350.
-/
structure CameraInfo (K : Type) where
  intrinsic : Matrix (Fin 3) (Fin 3) K
  p0 : K
  p3 : K

/-- Node parameters: `stereo_distance_filter/{enabled, max_distance, min_distance}`, `publish_stats`, `publish_points`,
`print_stats`. Read in stereo_factor_finder.cpp:176-321. -/
structure FinderConfig (K : Type) where
  distanceEnabled : Bool
  maxDistance : K
  minDistance : K
  publishStats : Bool
  publishPoints : Bool
  printStats : Bool

/-- The `try`/`catch` around the backprojection in the loop of `trackPoints`. Source: stereo_factor_finder.cpp:410-413. -/
def appendPoint (ps : List (Fin 3 → K)) : Outcome (Fin 3 → K) → Outcome (List (Fin 3 → K))
  | .ok p => .ok (ps ++ [p])
  | .throws => .ok ps
  | .ub => .ub

/-- `stereo_points` of stereo_factor_finder.cpp:394-418: a feature without disparity is skipped. -/
def trackPoints (t : Track K) (intrinsic : Matrix (Fin 3) (Fin 3) K) (baseline : K) : Outcome (List (Fin 3 → K)) :=
  forLoop t.pairs.length (fun i s =>
    getAt t.pairs i >>= fun m =>
    indexInt t.left m.queryIdx >>= fun l =>
    indexInt t.right m.trainIdx >>= fun r =>
    appendPoint s (backproject ![l.x, r.x, (l.y + r.y) / 2] intrinsic baseline)) []

/-- The points for a baseline that is the result of a division. Every coordinate has the baseline as a factor: with an infinite
or undefined one the same points are appended, without a finite coordinate (`none`). Source: stereo_factor_finder.cpp:393-418.
-/
def pointMessage (t : Track K) (intrinsic : Matrix (Fin 3) (Fin 3) K) (baseline : Division K) :
    Outcome (List (Option (Fin 3 → K))) :=
  match baseline with
  | .num b => trackPoints t intrinsic b >>= fun ps => .ok (ps.map some)
  | _ => trackPoints t intrinsic 1 >>= fun ps => .ok (ps.map fun _ => none)

/-- The distance filter is created before the first frame, stereo_factor_finder.cpp:336-351. `P[0] = 0` gives a baseline that is
infinite or not a number. -/
def setupDistanceFilter {I : Type} (fcfg : FinderConfig K) (leftInfo rightInfo : CameraInfo K) : M (Tracker I K) Unit := do
  let s ← M.get
  if s.frameNumber = -1 ∧ fcfg.distanceEnabled = true then
    if leftInfo.intrinsic 0 0 ≠ rightInfo.intrinsic 0 0 then M.throw
    else
      let baseline := baselineOf rightInfo.p3 rightInfo.p0
      if baseline.nonPositive = true then M.throw
      else M.modify fun s =>
        { s with distanceFilter := some (.createFrom (leftInfo.intrinsic 0 0) baseline fcfg.maxDistance fcfg.minDistance) }
  else pure ()

/-- What one call of `stereo_callback` publishes. Source: stereo_factor_finder.cpp:373-426. -/
structure Published where
  features : List BackEnd.Feature
  stats : Option Stats
  points : Option (List (Option (Fin 3 → ℚ)))

/-- `Statistics::to_string`: what is read, without the text. Source: stereo_feature_tracker.cpp:18-31, called in
stereo_factor_finder.cpp:374-376. -/
def printStatistics (st : Stats) : Outcome Unit :=
  toStatsMsg st >>= fun _ => .ok ()

/-- The messages of `stereo_callback` after the frame is processed, stereo_factor_finder.cpp:373-428 (without the drawing). -/
def messages (fcfg : FinderConfig ℚ) (t : Track ℚ) (st : Stats) (leftInfo rightInfo : CameraInfo ℚ) : Outcome Published :=
  (if fcfg.printStats then printStatistics st else .ok ()) >>= fun _ =>
  (if fcfg.publishStats then toStatsMsg st >>= fun m => .ok (some m) else .ok none) >>= fun stats =>
  (if fcfg.publishPoints then
      if (baselineOf rightInfo.p3 rightInfo.p0).nonPositive = true then .throws
      else pointMessage t leftInfo.intrinsic (baselineOf rightInfo.p3 rightInfo.p0) >>= fun ps => .ok (some ps)
    else .ok none) >>= fun points =>
  toFeatures t >>= fun features =>
  .ok ⟨features, stats, points⟩

/-- Members of the node. The images that the tracker keeps refer to the data of the messages; `alive`: the node holds these
messages (`previous_left_image`, `previous_right_image`), so the data is not released. Members of stereo_factor_finder.hpp, used
in stereo_factor_finder.cpp:329-431. -/
structure Finder (I : Type) where
  tracker : Tracker I ℚ
  alive : Bool

/-- The vision algorithms if the previous images may be released: reading them is undefined behaviour. No counterpart in /repo.
-/
def Vision.reading {I K : Type} (v : Vision I K) (alive : Bool) : Vision I K :=
  if alive then v else { v with flow := fun _ _ _ => .ub }

/-- Run a function of the tracker in the node. Calls in stereo_factor_finder.cpp:337-371. -/
def onTracker {I α : Type} (m : M (Tracker I ℚ) α) : M (Finder I) α := fun s =>
  let r := m s.tracker
  (r.1, { s with tracker := r.2 })

/-- `stereo_callback`, stereo_factor_finder.cpp:329-433. The tracker refers to the images of this callback as soon as they are
processed; the node holds them from line 431 on. -/
def stereoCallback {I : Type} (v : Vision I ℚ) (cfg : TrackerConfig ℚ) (fcfg : FinderConfig ℚ) (left right : I)
    (leftInfo rightInfo : CameraInfo ℚ) : M (Finder I) Published := do
  onTracker (setupDistanceFilter fcfg leftInfo rightInfo)
  let s ← M.get
  let r ← onTracker (process (v.reading s.alive) cfg left right)
  M.modify fun s => { s with alive := false }
  let p ← M.lift (messages fcfg r.1 r.2 leftInfo rightInfo)
  M.modify fun s => { s with alive := true }
  pure p

end Stereo

end Serpent
