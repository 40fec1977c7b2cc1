import Verif.Spec.Stereo
import Verif.Model.StereoTracker

/-!
# Specification of the stereo feature tracker

A track is a list of observations: an id, the keypoints in both images and the matching cost. One step moves the observations
along the optical flow, drops those that are lost or not admissible, and appends new ones with new ids.
-/

namespace Serpent

namespace Stereo

variable {I K : Type} [Field K] [LinearOrder K]

/-- What is seen of one feature in a stereo frame. -/
structure Observation (K : Type) where
  id : Int
  left : KeyPoint K
  right : KeyPoint K
  distance : K
deriving DecidableEq, Repr

/-- The arrays of a track that contain exactly the given observations: the i-th match connects the i-th keypoints. -/
def ofObs (os : List (Observation K)) : Track K :=
  ⟨os.map (·.left), os.map (·.right), os.zipIdx.map (fun p => ⟨p.2, p.2, p.1.distance⟩), os.map (·.id)⟩

/-- The keypoint at another place. -/
def KeyPoint.movedTo (kp : KeyPoint K) (p : K × K) : KeyPoint K := { kp with x := p.1, y := p.2 }

/-- The observations for which the flow succeeded (status 1) in both images, moved along it. -/
def advance (os : List (Observation K)) (flowL flowR : List (Nat × K × K)) : List (Observation K) :=
  (os.zip (flowL.zip flowR)).filterMap fun p =>
    if p.2.1.1 = 1 ∧ p.2.2.1 = 1 then
      some { p.1 with left := p.1.left.movedTo p.2.1.2, right := p.1.right.movedTo p.2.2.2 }
    else none

/-- Within the depth limits of the distance filter, if there is one. -/
def DepthOk : Option (DistanceFilter K) → KeyPoint K → KeyPoint K → Prop
  | none, _, _ => True
  | some d, l, r => r.x < l.x ∧ ∃ x, d.fxB = some x ∧ d.minDistance ≤ x / (l.x - r.x) ∧ x / (l.x - r.x) ≤ d.maxDistance

/-- The squared distance of two keypoints. -/
def sqrDistance (p q : KeyPoint K) : K := (q.x - p.x) ^ 2 + (q.y - p.y) ^ 2

/-- What is assumed of the vision algorithms: they end or throw; optical flow gives one result per point; matching gives one
index and one cost per left keypoint, and an index is -1 or that of a right keypoint. -/
structure Vision.Sound (v : Vision I K) : Prop where
  detect : ∀ i, v.detect i ≠ .ub
  flow : ∀ i j ps, v.flow i j ps ≠ .ub
  flowLength : ∀ i j ps rs, v.flow i j ps = .ok rs → rs.length = ps.length
  indices : ∀ l r i j, v.indices l r i j ≠ .ub
  indicesLength : ∀ l r i j idx costs, v.indices l r i j = .ok (idx, costs) → idx.length = l.length ∧ costs.length = l.length
  indicesRange : ∀ l r i j idx costs, v.indices l r i j = .ok (idx, costs) →
    ∀ k ∈ idx, k = -1 ∨ ∃ n : Nat, k = n ∧ n < r.length

/-- Process a sequence of stereo frames: the outcome of each call, and the tracker at the end. -/
def run (v : Vision I K) (cfg : TrackerConfig K) : List (I × I) → Tracker I K → List (Outcome (Track K × Stats)) × Tracker I K
  | [], s => ([], s)
  | f :: fs, s =>
    let r := process v cfg f.1 f.2 s
    let rest := run v cfg fs r.2
    (r.1 :: rest.1, rest.2)

/-- The positions that the optical flow gives for keypoints; it is only asked if there are keypoints. -/
def Flow (v : Vision I K) (previous current : I) (kps : List (KeyPoint K)) (rs : List (Nat × K × K)) : Prop :=
  if kps = [] then rs = [] else v.flow previous current (kps.map fun kp => (kp.x, kp.y)) = .ok rs

/-- `o'` is an observation that the flow found again in both images, at the place where the flow found it. -/
def FoundAgain (os : List (Observation K)) (flowL flowR : List (Nat × K × K)) (o' : Observation K) : Prop :=
  ∃ (k : Nat) (o : Observation K) (pl pr : K × K), os[k]? = some o ∧ flowL[k]? = some (1, pl) ∧ flowR[k]? = some (1, pr) ∧
    o' = { o with left := o.left.movedTo pl, right := o.right.movedTo pr }

/-- The number of ids given out by a history. -/
def issued (outs : List (Outcome (Track K × Stats))) : Nat :=
  (outs.map fun o => match o with
    | .ok (_, st) => st.newMatchCount
    | _ => 0).sum

/-- A synchronised set of messages: the two images and the two camera parameters. -/
structure StereoInput (I : Type) where
  left : I
  right : I
  leftInfo : CameraInfo ℚ
  rightInfo : CameraInfo ℚ

/-- Give a sequence of messages to the node: what each callback publishes, and the node at the end. -/
def runFinder (v : Vision I ℚ) (cfg : TrackerConfig ℚ) (fcfg : FinderConfig ℚ) :
    List (StereoInput I) → Finder I → List (Outcome Published) × Finder I
  | [], s => ([], s)
  | f :: fs, s =>
    let r := stereoCallback v cfg fcfg f.left f.right f.leftInfo f.rightInfo s
    let rest := runFinder v cfg fcfg fs r.2
    (r.1 :: rest.1, rest.2)

/-- The node after construction. -/
def Finder.init (df : Option (DistanceFilter ℚ)) : Finder I := ⟨.init df, true⟩

/-- The right camera is to the right of the left one. -/
def GoodBaseline (f : StereoInput I) : Prop := 0 < -f.rightInfo.p3 / f.rightInfo.p0

end Stereo

end Serpent
