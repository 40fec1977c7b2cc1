import Verif.Spec.StereoTracker
import Verif.Model.StereoDrawing

/-!
# Specification of the images that the stereo tracker draws
-/

namespace Serpent

namespace Stereo

variable {I K : Type} [Field K] [LinearOrder K]

/-- There are two images, and every match refers to keypoints that exist. -/
def Drawing.Legal : Drawing I K → Prop
  | .keypoints _ _ => True
  | .pairs first kps1 _ kps2 ms => first.isSome ∧ ∀ m ∈ ms, 0 ≤ m.queryIdx ∧ m.queryIdx.toNat < kps1.length ∧
      0 ≤ m.trainIdx ∧ m.trainIdx.toNat < kps2.length

instance (d : Drawing I K) : Decidable d.Legal := by
  cases d <;> unfold Drawing.Legal <;> infer_instance

/-- What is assumed of OpenCV: legal drawings are made. -/
def Canvas.Sound (c : Canvas I K) : Prop := ∀ d : Drawing I K, d.Legal → c d = .ok ()

/-- OpenCV with its checks (`CV_Assert` in `drawMatches` and in `cvtColor`): everything else throws. -/
def Canvas.checked : Canvas I K := fun d => if d.Legal then .ok () else .throws

/-- The pairs of keypoints that a drawing connects. -/
def Drawing.shown : Drawing I K → List (KeyPoint K × KeyPoint K)
  | .keypoints _ _ => []
  | .pairs _ kps1 _ kps2 ms => ms.filterMap fun m =>
      match kps1[m.queryIdx.toNat]?, kps2[m.trainIdx.toNat]? with
      | some a, some b => some (a, b)
      | _, _ => none

/-- The images that a drawing shows. -/
def Drawing.of : Drawing I K → Option I × Option I
  | .keypoints i _ => (some i, none)
  | .pairs i _ j _ _ => (i, some j)

/-- Process a sequence of stereo frames and draw: the outcome of each call, and the tracker at the end. -/
def runDrawn (c : Canvas I K) (v : Vision I K) (cfg : TrackerConfig K) :
    List (I × I) → Tracker I K → List (Outcome ((Track K × Stats) × Images I K)) × Tracker I K
  | [], s => ([], s)
  | f :: fs, s =>
    let r := processDrawn c v cfg f.1 f.2 s
    let rest := runDrawn c v cfg fs r.2
    (r.1 :: rest.1, rest.2)

/-- An outcome without the images. -/
def withoutImages : Outcome ((Track K × Stats) × Images I K) → Outcome (Track K × Stats)
  | .ok r => .ok r.1
  | .throws => .throws
  | .ub => .ub

/-- The keypoints that the flow finds again (status 1), with the place where it finds them. -/
def found (kps : List (KeyPoint K)) (flow : List (Nat × K × K)) : List (KeyPoint K × KeyPoint K) :=
  (kps.zip flow).filterMap fun p => if p.2.1 = 1 then some (p.1, p.1.movedTo p.2.2) else none

/-- The first frame with two images of equal size is processed without an exception. -/
def StartsWell (v : Vision I K) (cfg : TrackerConfig K) (frames : List (I × I)) (s : Tracker I K) : Prop :=
  ∀ (j : Nat) (f : I × I), frames[j]? = some f → (run v cfg frames s).1[j]? = some .throws →
    v.size f.1 ≠ v.size f.2 ∨ ∃ i < j, ∃ r, (run v cfg frames s).1[i]? = some (.ok r)

/-- Give a sequence of messages to the node that draws: what each callback publishes, and the node at the end. -/
def runFinderDrawn (c : Canvas I ℚ) (v : Vision I ℚ) (cfg : TrackerConfig ℚ) (fcfg : FinderConfig ℚ) :
    List (StereoInput I) → Finder I → List (Outcome (Published × Images I ℚ)) × Finder I
  | [], s => ([], s)
  | f :: fs, s =>
    let r := stereoCallbackDrawn c v cfg fcfg f.left f.right f.leftInfo f.rightInfo s
    let rest := runFinderDrawn c v cfg fcfg fs r.2
    (r.1 :: rest.1, rest.2)

/-- The messages of a callback other than the images. -/
def otherMessages : Outcome (Published × Images I ℚ) → Outcome Published
  | .ok r => .ok r.1
  | .throws => .throws
  | .ub => .ub

/-- The node publishes something before a callback throws that counts a frame. -/
def NodeStartsWell (v : Vision I ℚ) (cfg : TrackerConfig ℚ) (fcfg : FinderConfig ℚ) (frames : List (StereoInput I))
    (s : Finder I) : Prop :=
  ∀ j : Nat, (runFinder v cfg fcfg frames s).1[j]? = some .throws →
    (∃ i < j, ∃ p, (runFinder v cfg fcfg frames s).1[i]? = some (.ok p)) ∨
    (runFinder v cfg fcfg (frames.take (j + 1)) s).2.tracker.frameNumber = -1

end Stereo

end Serpent
