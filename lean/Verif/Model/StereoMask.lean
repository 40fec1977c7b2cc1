import Verif.Model.StereoTracker
import Verif.Model.Parameters

/-!
# Model of the region of interest of `StereoFeatureTracker` (stereo_feature_tracker.cpp:37-74, 82 and 256-260)

Simplifications (apply to the whole file):
* The mask is a table of booleans (the code sets pixels to 0 and to 1, and the detectors ask whether a pixel is 0).
* The drawing of the region into the debug images is left out.
-/

namespace Serpent

namespace Stereo

variable {I K : Type} [Field K] [LinearOrder K]

/-- `cv::Mat roi_mask`, stereo_feature_tracker.hpp:188; `on row col`: the pixel is not 0. -/
structure Mask where
  rows : Int
  cols : Int
  on : Int → Int → Bool

/-- A default constructed `cv::Mat`: no pixels. The member of stereo_feature_tracker.hpp:188 at first. -/
def Mask.none : Mask := ⟨0, 0, fun _ _ => false⟩

/-- `cv::Mat::zeros(rows, cols, CV_8U)`, stereo_feature_tracker.cpp:71. -/
def Mask.zeros (size : Int × Int) : Mask := ⟨size.1, size.2, fun _ _ => false⟩

/-- The assertion of `cv::Mat::operator()(Rect)` (OpenCV): the region is inside of the matrix. In
stereo_feature_tracker.cpp:72. -/
def Mask.contains (m : Mask) (roi : Params.Rect) : Prop :=
  0 ≤ roi.x ∧ 0 ≤ roi.width ∧ roi.x + roi.width ≤ m.cols ∧ 0 ≤ roi.y ∧ 0 ≤ roi.height ∧ roi.y + roi.height ≤ m.rows

instance (m : Mask) (roi : Params.Rect) : Decidable (m.contains roi) := by unfold Mask.contains; infer_instance

/-- `m(roi) = 1`, stereo_feature_tracker.cpp:72, if the region is inside. -/
def Mask.fill (m : Mask) (roi : Params.Rect) : Mask :=
  { m with on := fun row col =>
      if roi.y ≤ row ∧ row < roi.y + roi.height ∧ roi.x ≤ col ∧ col < roi.x + roi.width then true else m.on row col }

/-- `cv::Rect2i{}`. In stereo_feature_tracker.cpp:70. -/
def noRegion : Params.Rect := ⟨0, 0, 0, 0⟩

/-- stereo_feature_tracker.cpp:69-74: the mask is made for the first image and whenever the size changes. It is assigned before the
region is checked. -/
def prepareMask (roi : Params.Rect) (size : Int × Int) : M Mask Unit := do
  let m ← M.get
  if roi ≠ noRegion ∧ (m.rows, m.cols) ≠ size then do
    M.modify fun _ => Mask.zeros size
    let z ← M.get
    if z.contains roi then M.modify fun z => z.fill roi else M.throw
  else pure ()

/-- The algorithms the tracker is built from, with the mask as an argument of the detector (`detector->detect(image, keypoints, mask)`,
stereo_feature_tracker.cpp:256-260). `size`: rows and columns. -/
structure MaskedVision (I K : Type) where
  size : I → Int × Int
  detect : I → Mask → Outcome (List (KeyPoint K))
  flow : I → I → List (K × K) → Outcome (List (Nat × K × K))
  indices : List (KeyPoint K) → List (KeyPoint K) → I → I → Outcome (List Int × List K)

/-- `extract_keypoints(image, roi_mask)`, stereo_feature_tracker.cpp:82: the algorithms for a value of the member. -/
def MaskedVision.using (v : MaskedVision I K) (m : Mask) : Vision I K := ⟨v.size, fun i => v.detect i m, v.flow, v.indices⟩

/-- The members of the tracker, with `roi_mask`, stereo_feature_tracker.hpp:183-195. -/
structure MaskedTracker (I K : Type) where
  tracker : Tracker I K
  mask : Mask

/-- The constructor, stereo_feature_tracker.cpp:33-47. -/
def MaskedTracker.init (distanceFilter : Option (DistanceFilter K)) : MaskedTracker I K := ⟨Tracker.init distanceFilter, .none⟩

/-- `process`, stereo_feature_tracker.cpp:53-220, with the region of interest. The frame number (line 62) is incremented in `process`
if the mask could be made. -/
def processMasked (v : MaskedVision I K) (roi : Params.Rect) (cfg : TrackerConfig K) (left right : I) :
    M (MaskedTracker I K) (Track K × Stats) := fun s =>
  if v.size left ≠ v.size right then (.throws, s)
  else
    match prepareMask roi (v.size left) s.mask with
    | (.ok _, m) =>
      let r := process (v.using m) cfg left right s.tracker
      (r.1, ⟨r.2, m⟩)
    | (.throws, m) => (.throws, ⟨{ s.tracker with frameNumber := s.tracker.frameNumber + 1 }, m⟩)
    | (.ub, m) => (.ub, ⟨{ s.tracker with frameNumber := s.tracker.frameNumber + 1 }, m⟩)

end Stereo

end Serpent
