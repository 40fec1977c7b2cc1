import Verif.Model.StereoTracker

/-!
# Model of the images that `StereoFeatureTracker` draws (`IntermediateImages`)

With `intermediate_images` the tracker draws seven images while it processes a frame (stereo_feature_tracker.cpp:84-92, 108-115,
147-152, 158-164, 195-202), which the node publishes (stereo_factor_finder.cpp:358-362, 383-391). A drawing is the call of OpenCV
that makes it: the pixels, the colours, the flags and the rectangle around the region of interest are left out.
-/

namespace Serpent

namespace Stereo

open EigenRos (forLoop getAt)

variable {K : Type} [Field K] [LinearOrder K]

/-- `cv::drawKeypoints` and `cv::drawMatches`. The first image of matches may be empty (`none`): a frame before the first one
that is processed to the end. Calls in stereo_feature_tracker.cpp:85-201. -/
inductive Drawing (I K : Type) where
  | keypoints (image : I) (kps : List (KeyPoint K))
  | pairs (first : Option I) (kps1 : List (KeyPoint K)) (second : I) (kps2 : List (KeyPoint K)) (ms : List (DMatch K))
deriving DecidableEq

/-- `IntermediateImages`, stereo_feature_tracker.hpp:55-69: the images. `sofMatches` is not assigned in the first frame. -/
structure Images (I K : Type) where
  extracted : Drawing I K × Drawing I K
  sofMatches : Option (Drawing I K × Drawing I K)
  stereoFiltered : Drawing I K
  tracked : Drawing I K
  new : Drawing I K
deriving DecidableEq

/-- How OpenCV draws: it may throw. Called in stereo_feature_tracker.cpp:85-201. -/
abbrev Canvas (I K : Type) := Drawing I K → Outcome Unit

/-- Draw, and keep what is drawn. Called in stereo_feature_tracker.cpp:85-201. -/
def Canvas.draw {I : Type} (c : Canvas I K) (d : Drawing I K) : Outcome (Drawing I K) := c d >>= fun _ => .ok d

/-- `all_sof_keypoints` and `f2f_matches` of one image: the keypoints where the flow finds them, and a match for each status 1.
Source: stereo_feature_tracker.cpp:320-328. -/
def flowMatches (kps : List (KeyPoint K)) (flow : List (Nat × K × K)) : Outcome (List (KeyPoint K) × List (DMatch K)) :=
  forLoop flow.length (fun i s =>
    getAt flow i >>= fun f =>
    getAt kps i >>= fun kp =>
    .ok (s.1 ++ [{ kp with x := f.2.1, y := f.2.2 }], if f.1 = 1 then s.2 ++ [⟨i, i, 0⟩] else s.2)) ([], [])

/-- The image `sof_matches` of one side, stereo_feature_tracker.cpp:110-113. The flow is a function of the images and the
keypoints, so it is written as another call. -/
def sofDrawing {I : Type} (c : Canvas I K) (v : Vision I K) (previous : Option I) (current : I) (kps : List (KeyPoint K)) :
    Outcome (Drawing I K) :=
  flowOf v previous current kps >>= fun flow =>
  flowMatches kps flow >>= fun m =>
  c.draw (.pairs previous kps current m.1 m.2)

/-- The images `sof_matches`, stereo_feature_tracker.cpp:98, 108-115. -/
def sofDrawings {I : Type} (c : Canvas I K) (v : Vision I K) (s : Tracker I K) (left right : I) :
    Outcome (Option (Drawing I K × Drawing I K)) :=
  if s.frameNumber > 0 then
    sofDrawing c v (s.images.map (·.1)) left s.track.left >>= fun l =>
    sofDrawing c v (s.images.map (·.2)) right s.track.right >>= fun r =>
    .ok (some (l, r))
  else .ok none

/-- `process` with `intermediate_images`, stereo_feature_tracker.cpp:53-220. The new keypoints close to tracked ones are removed
(lines 117-125, in `hypotheses`) before the flow is drawn: one does not use the result of the other. -/
def processDrawn {I : Type} (c : Canvas I K) (v : Vision I K) (cfg : TrackerConfig K) (left right : I) :
    M (Tracker I K) ((Track K × Stats) × Images I K) :=
  if v.size left ≠ v.size right then M.throw else do
  M.modify fun s => { s with frameNumber := s.frameNumber + 1 }
  let newL ← M.lift (v.detect left)
  let imageL ← M.lift (c.draw (.keypoints left newL))
  let newR ← M.lift (v.detect right)
  let imageR ← M.lift (c.draw (.keypoints right newR))
  let s ← M.get
  let h ← M.lift (hypotheses v cfg s left right newL newR)
  let sof ← M.lift (sofDrawings c v s left right)
  filterTracked cfg h.1
  let tracked ← M.get
  let filteredImage ← M.lift (c.draw (.pairs (some left) h.1.left right h.1.right tracked.track.pairs))
  keepTracked h.1
  let kept ← M.get
  let trackedImage ← M.lift (c.draw (.pairs (some left) kept.track.left right kept.track.right kept.track.pairs))
  let n ← M.lift (newMatches v cfg s.distanceFilter h.2.1 h.2.2 left right)
  -- new match ids
  let n := { n with ids := n.ids ++ (List.range n.pairs.length).map fun i : Nat => s.nextMatchId + i }
  M.modify fun s => { s with nextMatchId := s.nextMatchId + n.pairs.length }
  let newImage ← M.lift (c.draw (.pairs (some left) n.left right n.right n.pairs))
  let s' ← M.get
  let t ← M.lift (appendMatches n s'.track)
  M.modify fun s => { s with track := t }
  M.modify fun s => { s with images := some (left, right) }
  pure ((t, {
    frameNumber := s.frameNumber
    maxMatchId := s'.nextMatchId - 1
    longestTrackedMatchId := tracked.track.ids.head?.getD (-1)
    trackedKpCount := if s.frameNumber > 0 then some (h.1.left.length, h.1.right.length) else none
    trackedMatchCount := tracked.track.pairs.length
    extractedKpCount := (newL.length, newR.length)
    filteredExtractedKpCount := if s.frameNumber > 0 then some (h.2.1.length, h.2.2.length) else none
    newMatchCount := n.pairs.length
    totalMatchCount := t.pairs.length
    matchIds := t.ids }), ⟨(imageL, imageR), sof, filteredImage, trackedImage, newImage⟩)

/-- Drawing if the previous images may be released (see `Vision.reading`): reading them is undefined behaviour. They are only
released after a frame was processed, and then the first matches that are drawn are those from the previous images. Called in
stereo_factor_finder.cpp:371. -/
def Canvas.reading {I : Type} (c : Canvas I K) (alive : Bool) : Canvas I K := fun d =>
  match alive, d with
  | false, .pairs _ _ _ _ _ => .ub
  | _, _ => c d

/-- `stereo_callback` with `publish_intermediate_results`, stereo_factor_finder.cpp:329-433: it also publishes the images
(lines 383-391), which needs nothing that could fail. -/
def stereoCallbackDrawn {I : Type} (c : Canvas I ℚ) (v : Vision I ℚ) (cfg : TrackerConfig ℚ) (fcfg : FinderConfig ℚ)
    (left right : I) (leftInfo rightInfo : CameraInfo ℚ) : M (Finder I) (Published × Images I ℚ) := do
  onTracker (setupDistanceFilter fcfg leftInfo rightInfo)
  let s ← M.get
  let r ← onTracker (processDrawn (c.reading s.alive) (v.reading s.alive) cfg left right)
  M.modify fun s => { s with alive := false }
  let p ← M.lift (messages fcfg r.1.1 r.1.2 leftInfo rightInfo)
  M.modify fun s => { s with alive := true }
  pure (p, r.2)

end Stereo

end Serpent
