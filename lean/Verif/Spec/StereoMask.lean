import Verif.Spec.StereoTracker
import Verif.Model.StereoMask

/-!
# Specification of the region of interest of the stereo feature tracker
-/

namespace Serpent

namespace Stereo

variable {I K : Type} [Field K] [LinearOrder K]

/-- The pixel is in the region. -/
def InRegion (roi : Params.Rect) (row col : Int) : Prop :=
  roi.y ≤ row ∧ row < roi.y + roi.height ∧ roi.x ≤ col ∧ col < roi.x + roi.width

instance (roi : Params.Rect) (row col : Int) : Decidable (InRegion roi row col) := by unfold InRegion; infer_instance

/-- The region is inside of images with this number of rows and columns. -/
def Fits (roi : Params.Rect) (size : Int × Int) : Prop :=
  0 ≤ roi.x ∧ 0 ≤ roi.y ∧ 0 ≤ roi.width ∧ 0 ≤ roi.height ∧ roi.x + roi.width ≤ size.2 ∧ roi.y + roi.height ≤ size.1

instance (roi : Params.Rect) (size : Int × Int) : Decidable (Fits roi size) := by unfold Fits; infer_instance

/-- The mask that allows exactly the pixels of the region, for an image of this size; without a region there is none. -/
def regionMask (roi : Params.Rect) (size : Int × Int) : Mask :=
  if roi = noRegion then .none else ⟨size.1, size.2, fun row col => decide (InRegion roi row col)⟩

/-- The algorithms, where the detector is always given exactly the region. -/
def MaskedVision.inRegion (v : MaskedVision I K) (roi : Params.Rect) : Vision I K :=
  ⟨v.size, fun i => v.detect i (regionMask roi (v.size i)), v.flow, v.indices⟩

/-- The detector finds keypoints only at most `d` away (in each coordinate) from a pixel that the mask allows, if it is given a
mask. `d` is 1/2 for detectors that look up the pixel nearest to a keypoint, and greater for those that work on scaled images. Without
pixels there are no keypoints. -/
structure MaskedVision.Respects (v : MaskedVision I K) (d : K) : Prop where
  masked : ∀ i m kps, (m.rows, m.cols) = v.size i → v.size i ≠ (0, 0) → v.detect i m = .ok kps → ∀ kp ∈ kps,
    ∃ row col : Int, m.on row col = true ∧ |kp.x - col| ≤ d ∧ |kp.y - row| ≤ d
  empty : ∀ i m kps, v.size i = (0, 0) → v.detect i m = .ok kps → kps = []

/-- A keypoint that is at most `d` away from the region. -/
def Near (roi : Params.Rect) (d : K) (kp : KeyPoint K) : Prop :=
  ∃ row col : Int, InRegion roi row col ∧ |kp.x - col| ≤ d ∧ |kp.y - row| ≤ d

/-- Process a sequence of stereo frames: the outcome of each call, and the tracker at the end. -/
def runMasked (v : MaskedVision I K) (roi : Params.Rect) (cfg : TrackerConfig K) :
    List (I × I) → MaskedTracker I K → List (Outcome (Track K × Stats)) × MaskedTracker I K
  | [], s => ([], s)
  | f :: fs, s =>
    let r := processMasked v roi cfg f.1 f.2 s
    let rest := runMasked v roi cfg fs r.2
    (r.1 :: rest.1, rest.2)

end Stereo

end Serpent
