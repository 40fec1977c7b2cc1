import Verif.Model.Arrays
import Verif.Basic.Division
import Mathlib.Algebra.Order.Floor.Ring
import Mathlib.Algebra.Order.Field.Basic

/-!
# Model of the stereo matching code (match_filters.cpp, window_functions.cpp, stereo_cost_functions.cpp,
stereo_keypoint_matcher.cpp, stereo_equations-inl.hpp)

Simplifications (apply to the whole file):
* `float` and `double` are elements of an ordered field `K`; a not-a-number result of a cost function is `none`.
* `int` is unbounded; converting a negative `int` to an index gives a position past the end of every container.
* `cv::Mat` of type `CV_8U` is a table of pixels with values below 256; `image.at<unsigned char>(row, col)` outside of the
  image is undefined behaviour.
-/

namespace Serpent

namespace Stereo

open EigenRos (forLoop getAt)

/-- `cv::KeyPoint`. Used in stereo_keypoint_matcher.cpp:35-170. -/
structure KeyPoint (K : Type) where
  x : K
  y : K
  size : K
  angle : K
  response : K
  octave : Int
  classId : Int
deriving DecidableEq, Repr

/-- `cv::DMatch`. Used in stereo_keypoint_matcher.cpp:117-170. -/
structure DMatch (K : Type) where
  queryIdx : Int
  trainIdx : Int
  distance : K
deriving DecidableEq, Repr

/-- `v.at(i)` for an `int` index. Used in match_filters.cpp:46-61 and 84-102. -/
def atInt {α : Type} (v : List α) (i : Int) : Outcome α :=
  if i < 0 then .throws else
    match v[i.toNat]? with
    | some x => .ok x
    | none => .throws

/-- `v[i]` for an `int` index. Used in stereo_feature_tracker.cpp. -/
def indexInt {α : Type} (v : List α) (i : Int) : Outcome α :=
  if i < 0 then .ub else
    match v[i.toNat]? with
    | some x => .ok x
    | none => .ub

variable {K : Type} [Field K] [LinearOrder K]

/-! ### match_filters.cpp -/

/-- `DistanceMatchFilter::filter`, match_filters.cpp:16-28: the matches and the indices. -/
def distanceMatchFilter (threshold : K) (ms : List (DMatch K)) : Outcome (List (DMatch K) × List Nat) :=
  forLoop ms.length (fun i s => getAt ms i >>= fun m =>
    if m.distance ≤ threshold then .ok (s.1 ++ [m], s.2 ++ [i]) else .ok s) ([], [])

/-- `StereoMatchFilter::filter`, match_filters.cpp:46-61. -/
def stereoMatchFilter (vertical : K) (query train : List (KeyPoint K)) (ms : List (DMatch K)) :
    Outcome (List (DMatch K) × List Nat) :=
  forLoop ms.length (fun i s => getAt ms i >>= fun m =>
    atInt query m.queryIdx >>= fun q =>
    atInt train m.trainIdx >>= fun t =>
    if q.x > t.x ∧ |q.y - t.y| ≤ vertical then .ok (s.1 ++ [m], s.2 ++ [i]) else .ok s) ([], [])

/-- `StereoDistanceFilter`, match_filters.hpp:73-99. `fx` and `baseline` are `none` if the member has no determinate value;
`fxB` is `none` if it is infinite or not a number. -/
structure DistanceFilter (K : Type) where
  fx : Option K
  baseline : Option K
  fxB : Option K
  maxDistance : K
  minDistance : K
deriving DecidableEq, Repr

/-- The constructor, match_filters.cpp:75-77. `fx` and `baseline` are not in the initialiser list. -/
def DistanceFilter.create (fx baseline maxDistance minDistance : K) : DistanceFilter K :=
  ⟨none, none, some (fx * baseline), maxDistance, minDistance⟩

/-- The constructor for a baseline that is the result of a division: the product with an infinite baseline is infinite or not a
number. Called in stereo_factor_finder.cpp:337-350. -/
def DistanceFilter.createFrom (fx : K) (baseline : Division K) (maxDistance minDistance : K) : DistanceFilter K :=
  match baseline with
  | .num b => .create fx b maxDistance minDistance
  | _ => ⟨none, none, none, maxDistance, minDistance⟩

/-- The comparisons of the depth, match_filters.cpp:94-95. An infinite depth exceeds the maximum or is below the minimum, and no
comparison with a depth that is not a number holds (the bounds are finite). -/
def DistanceFilter.depthOk (f : DistanceFilter K) (diff : K) : Bool :=
  match f.fxB with
  | some x => decide (x / diff ≥ f.minDistance ∧ x / diff ≤ f.maxDistance)
  | none => false

/-- `StereoDistanceFilter::filter`, match_filters.cpp:84-102. -/
def DistanceFilter.filter (f : DistanceFilter K) (query train : List (KeyPoint K)) (ms : List (DMatch K)) :
    Outcome (List (DMatch K) × List Nat) :=
  forLoop ms.length (fun i s => getAt ms i >>= fun m =>
    atInt query m.queryIdx >>= fun q =>
    atInt train m.trainIdx >>= fun t =>
    let diff := q.x - t.x
    if diff > 0 ∧ f.depthOk diff = true then .ok (s.1 ++ [m], s.2 ++ [i])
    else .ok s) ([], [])

/-- `set_baseline`, match_filters.cpp:108-111. Reading an indeterminate value is undefined. -/
def DistanceFilter.setBaseline (f : DistanceFilter K) (b : K) : Outcome (DistanceFilter K) :=
  match f.fx with
  | some fx => .ok { f with baseline := some b, fxB := some (fx * b) }
  | none => .ub

/-- `set_fx`, match_filters.cpp:113-116. -/
def DistanceFilter.setFx (f : DistanceFilter K) (fx : K) : Outcome (DistanceFilter K) :=
  match f.baseline with
  | some b => .ok { f with fx := some fx, fxB := some (fx * b) }
  | none => .ub

/-! ### window_functions.cpp -/

/-- `cv::Mat` with one channel. Used in stereo_keypoint_matcher.cpp. -/
structure Image where
  rows : Int
  cols : Int
  is8U : Bool
  pixel : Int → Int → Fin 256

/-- `cv::Size`. `window`, stereo_keypoint_matcher.cpp:19-33. -/
structure Size where
  width : Int
  height : Int
deriving DecidableEq, Repr

/-- `cv::Point2i`. Used in stereo_keypoint_matcher.cpp:35-98. -/
structure Point where
  x : Int
  y : Int
deriving DecidableEq, Repr

/-- `static_cast<double>(image.at<unsigned char>(row, col))`. Used in window_functions.cpp:12-34 and
stereo_cost_functions.cpp:10-150. -/
def Image.at (image : Image) (row col : Int) : Outcome K :=
  if 0 ≤ row ∧ row < image.rows ∧ 0 ≤ col ∧ col < image.cols then .ok (((image.pixel row col : Nat)) : K) else .ub

/-- `window_within_image`, window_functions.cpp:7-10. -/
def windowWithinImage (image : Image) (topLeft : Point) (window : Size) : Bool :=
  topLeft.x ≥ 0 ∧ topLeft.x + window.width ≤ image.cols ∧ topLeft.y ≥ 0 ∧ topLeft.y + window.height ≤ image.rows

/-- The loops over rows and columns of a window that all functions share: `acc += term(row, col)`. Used in
window_functions.cpp:12-34 and stereo_cost_functions.cpp:10-150. -/
def overWindow (window : Size) (term : Int → Int → Outcome K) (acc : K) : Outcome K :=
  forLoop window.height.toNat (fun row s => forLoop window.width.toNat (fun col s =>
    term row col >>= fun x => .ok (s + x)) s) acc

/-- `window_sum`, window_functions.cpp:12-20. `start` is the value of the accumulator before the loop. -/
def windowSumFrom (start : Outcome K) (image : Image) (topLeft : Point) (window : Size) : Outcome K :=
  start >>= fun s => overWindow window (fun row col => image.at (topLeft.y + row) (topLeft.x + col)) s

/-- `window_mean`, window_functions.cpp:22-24. -/
def windowMeanFrom (start : Outcome K) (image : Image) (topLeft : Point) (window : Size) : Outcome K :=
  windowSumFrom start image topLeft window >>= fun s => .ok (s / ((window.width * window.height : Int) : K))

/-- `window_sum_squares`, window_functions.cpp:26-34. -/
def windowSumSquaresFrom (start : Outcome K) (image : Image) (topLeft : Point) (window : Size) : Outcome K :=
  start >>= fun s => overWindow window
    (fun row col => image.at (topLeft.y + row) (topLeft.x + col) >>= fun (p : K) => .ok (p ^ 2)) s

/-- `double sum;`: the accumulator of the window functions is not initialised, window_functions.cpp:13 and 27. -/
def uninitialised : Outcome K := .ub

/-! ### stereo_cost_functions.cpp -/

/-- `MatchingCostFunction`, stereo_cost_functions.hpp. `none` is not-a-number. -/
abbrev CostFunction (K : Type) := Image → Image → Point → Point → Size → Outcome (Option K)

/-- `sum_of_absolute_differences`, stereo_cost_functions.cpp:10-24. -/
def sad : CostFunction K := fun image1 image2 topLeft1 topLeft2 window =>
  if image1.is8U = false ∨ image2.is8U = false then .throws else
    overWindow window (fun row col =>
      image1.at (topLeft1.y + row) (topLeft1.x + col) >>= fun (p : K) =>
      image2.at (topLeft2.y + row) (topLeft2.x + col) >>= fun (q : K) => .ok |p - q|) 0 >>= fun s => .ok (some s)

/-- `sum_of_squared_differences`, stereo_cost_functions.cpp:26-42. -/
def ssd : CostFunction K := fun image1 image2 topLeft1 topLeft2 window =>
  if image1.is8U = false ∨ image2.is8U = false then .throws else
    overWindow window (fun row col =>
      image1.at (topLeft1.y + row) (topLeft1.x + col) >>= fun (p : K) =>
      image2.at (topLeft2.y + row) (topLeft2.x + col) >>= fun (q : K) => .ok ((p - q) ^ 2)) 0 >>= fun s => .ok (some s)

/-- `zero_mean_sum_of_absolute_differences` with the mean of the first window, stereo_cost_functions.cpp:57-78. -/
def zmsadMean (start : Outcome K) (mean1 : K) : CostFunction K := fun image1 image2 topLeft1 topLeft2 window =>
  if image1.is8U = false ∨ image2.is8U = false then .throws else
    windowMeanFrom start image2 topLeft2 window >>= fun mean2 =>
    overWindow window (fun row col =>
      image1.at (topLeft1.y + row) (topLeft1.x + col) >>= fun (p : K) =>
      image2.at (topLeft2.y + row) (topLeft2.x + col) >>= fun (q : K) => .ok |p - q - mean1 + mean2|) 0
    >>= fun s => .ok (some s)

/-- `zero_mean_sum_of_absolute_differences`, stereo_cost_functions.cpp:44-55. -/
def zmsadFrom (start : Outcome K) : CostFunction K := fun image1 image2 topLeft1 topLeft2 window =>
  if image1.is8U = false then .throws else
    windowMeanFrom start image1 topLeft1 window >>= fun mean1 =>
    zmsadMean start mean1 image1 image2 topLeft1 topLeft2 window

/-- `locally_scaled_sum_of_absolute_differences` with the mean of the first window, stereo_cost_functions.cpp:93-115. If the
mean of the second window is zero, all its pixels are zero: `mean1 / 0` is infinite or not a number, and its product with a
zero pixel is not a number. -/
def lssadMean (start : Outcome K) (mean1 : K) : CostFunction K := fun image1 image2 topLeft1 topLeft2 window =>
  if image1.is8U = false ∨ image2.is8U = false then .throws else
    windowMeanFrom start image2 topLeft2 window >>= fun mean2 =>
    let meanRatio := mean1 / mean2
    overWindow window (fun row col =>
      image1.at (topLeft1.y + row) (topLeft1.x + col) >>= fun (p : K) =>
      image2.at (topLeft2.y + row) (topLeft2.x + col) >>= fun (q : K) => .ok |p - meanRatio * q|) 0
    >>= fun s => .ok (if mean2 = 0 then none else some s)

/-- `locally_scaled_sum_of_absolute_differences`, stereo_cost_functions.cpp:80-91. -/
def lssadFrom (start : Outcome K) : CostFunction K := fun image1 image2 topLeft1 topLeft2 window =>
  if image1.is8U = false then .throws else
    windowMeanFrom start image1 topLeft1 window >>= fun mean1 =>
    lssadMean start mean1 image1 image2 topLeft1 topLeft2 window

/-- `negative_normalised_cross_correlation` with the sum of squares of the first window, stereo_cost_functions.cpp:131-155.
If a sum of squares is zero, so is the correlation, and the quotient is not a number. -/
def nnccSquares (sqrt : K → K) (start : Outcome K) (sumSquares1 : K) : CostFunction K :=
  fun image1 image2 topLeft1 topLeft2 window =>
  if image1.is8U = false ∨ image2.is8U = false then .throws else
    windowSumSquaresFrom start image2 topLeft2 window >>= fun sumSquares2 =>
    overWindow window (fun row col =>
      image1.at (topLeft1.y + row) (topLeft1.x + col) >>= fun (p : K) =>
      image2.at (topLeft2.y + row) (topLeft2.x + col) >>= fun (q : K) => .ok (p * q)) 0 >>= fun cc =>
    .ok (if sumSquares1 * sumSquares2 = 0 then none else some (-(cc / sqrt (sumSquares1 * sumSquares2))))

/-- `negative_normalised_cross_correlation`, stereo_cost_functions.cpp:117-129. -/
def nnccFrom (sqrt : K → K) (start : Outcome K) : CostFunction K := fun image1 image2 topLeft1 topLeft2 window =>
  if image1.is8U = false then .throws else
    windowSumSquaresFrom start image1 topLeft1 window >>= fun sumSquares1 =>
    nnccSquares sqrt start sumSquares1 image1 image2 topLeft1 topLeft2 window

/-- The functions as they are: with the accumulators that are not initialised. Source: stereo_cost_functions.cpp:44-150. -/
def zmsad : CostFunction K := zmsadFrom uninitialised
@[inherit_doc zmsad] def lssad : CostFunction K := lssadFrom uninitialised
@[inherit_doc zmsad] def nncc (sqrt : K → K) : CostFunction K := nnccFrom sqrt uninitialised

/-! ### stereo_keypoint_matcher.cpp -/

/-- `MatchingFilter`, stereo_keypoint_matcher.hpp:26. -/
inductive MatchingFilter where
  | unidirectional
  | bidirectional
  | ratioTest
deriving DecidableEq, Repr

/-- `to_matching_filter`, stereo_keypoint_matcher.cpp:7-17. -/
def toMatchingFilter (s : String) : Outcome MatchingFilter :=
  if s = "UNIDIRECTIONAL" then .ok .unidirectional
  else if s = "BIDIRECTIONAL" then .ok .bidirectional
  else if s = "RATIO_TEST" then .ok .ratioTest
  else .throws

/-- `StereoKeyPointMatcher`: configuration, `generate_cost_function` of the derived class, and `numeric_limits<double>::max()`.
Source: stereo_keypoint_matcher.hpp:16-139. -/
structure Matcher (K : Type) where
  window : Size
  vertical : K
  filter : MatchingFilter
  ratio : K
  generate : Image → Point → Outcome (CostFunction K)
  maxCost : K

/-- The constructor, stereo_keypoint_matcher.cpp:19-33. -/
def Matcher.create (window : Size) (vertical : K) (filter : MatchingFilter) (ratio : K)
    (generate : Image → Point → Outcome (CostFunction K)) (maxCost : K) : Outcome (Matcher K) :=
  if window.width < 1 ∨ window.width % 2 = 0 ∨ window.height < 1 ∨ window.height % 2 = 0 then .throws
  else if ratio ≤ 0 ∨ ratio ≥ 1 then .throws
  else .ok ⟨window, vertical, filter, ratio, generate, maxCost⟩

/-- `generate_cost_function` of the five matchers, stereo_keypoint_matcher.cpp:203-205, 216-218, 229-239, 250-260, 271-281. -/
def generateSad : Image → Point → Outcome (CostFunction K) := fun _ _ => .ok sad
@[inherit_doc generateSad] def generateSsd : Image → Point → Outcome (CostFunction K) := fun _ _ => .ok ssd
@[inherit_doc generateSad] def generateZmsad (start : Outcome K) (window : Size) :
    Image → Point → Outcome (CostFunction K) :=
  fun image topLeft => windowMeanFrom start image topLeft window >>= fun mean => .ok (zmsadMean start mean)
@[inherit_doc generateSad] def generateLssad (start : Outcome K) (window : Size) :
    Image → Point → Outcome (CostFunction K) :=
  fun image topLeft => windowMeanFrom start image topLeft window >>= fun mean => .ok (lssadMean start mean)
@[inherit_doc generateSad] def generateNncc (sqrt : K → K) (start : Outcome K) (window : Size) :
    Image → Point → Outcome (CostFunction K) :=
  fun image topLeft => windowSumSquaresFrom start image topLeft window >>= fun s => .ok (nnccSquares sqrt start s)

section

variable [FloorRing K]

/-- `top_left`, stereo_keypoint_matcher.cpp:189-192, with `half_window_floor` of 28. -/
def Matcher.topLeft (m : Matcher K) (x y : K) : Point :=
  ⟨⌊x⌋ - (m.window.width - 1) / 2, ⌊y⌋ - (m.window.height - 1) / 2⟩

/-- The variables of the search loops: `cost`, `second_cost` and the best position so far. In stereo_keypoint_matcher.cpp:60-62.
-/
structure Search (K : Type) where
  cost : K
  second : K
  best : Int
deriving DecidableEq, Repr

/-- `if (window_cost < cost) { second_cost = cost; cost = window_cost; best = i; }`, stereo_keypoint_matcher.cpp:68-72 and
152-156. -/
def Search.update (s : Search K) (windowCost : Option K) (i : Int) : Search K :=
  match windowCost with
  | some c => if c < s.cost then ⟨c, s.cost, i⟩ else s
  | none => s

/-- `window_cost < cost`. In stereo_keypoint_matcher.cpp:68 and 152. -/
def isBelow (windowCost : Option K) (cost : K) : Bool :=
  match windowCost with
  | some c => c < cost
  | none => false

/-- `cost / second_cost > ratio`. In stereo_keypoint_matcher.cpp:90. -/
def Search.rejected (s : Search K) (ratio : K) : Prop := s.cost / s.second > ratio

instance (s : Search K) (ratio : K) : Decidable (s.rejected ratio) := by unfold Search.rejected; infer_instance

/-- stereo_keypoint_matcher.cpp:145-149: the candidate is near the line of the keypoint, on the right side of it, and its window
is inside the image. -/
def Matcher.admissible (m : Matcher K) (findInRight : Bool) (searchImage : Image) (kp cand : KeyPoint K) : Bool :=
  |cand.y - kp.y| ≤ m.vertical ∧
    ((findInRight = true ∧ cand.x ≤ kp.x) ∨ (findInRight = false ∧ cand.x ≥ kp.x)) ∧
    windowWithinImage searchImage (m.topLeft cand.x cand.y) m.window = true

/-- `keypoint_index_in_other_image`, stereo_keypoint_matcher.cpp:115-164. `cost` is the value of the output argument before
the call; the result is the index and the value afterwards. -/
def Matcher.keypointIndex (m : Matcher K) (kp : KeyPoint K) (search : List (KeyPoint K)) (left right : Image)
    (findInRight : Bool) (cost : K) : Outcome (Int × K) :=
  if left.rows ≠ right.rows ∨ left.cols ≠ right.cols then .throws else
  let reference := if findInRight then left else right
  let searchImage := if findInRight then right else left
  let refTopLeft := m.topLeft kp.x kp.y
  if windowWithinImage reference refTopLeft m.window = false then .ok (-1, cost) else
  m.generate reference refTopLeft >>= fun costFunction =>
  forLoop (σ := Search K) search.length (fun i s => getAt search i >>= fun cand =>
    if m.admissible findInRight searchImage kp cand = true then
      costFunction reference searchImage refTopLeft (m.topLeft cand.x cand.y) m.window >>= fun c => .ok (s.update c i)
    else .ok s) ⟨m.maxCost, m.maxCost, -1⟩ >>= fun s =>
  if m.filter = .ratioTest ∧ s.rejected m.ratio then .ok (-1, s.cost) else .ok (s.best, s.cost)

/-- `keypoint_indices_in_other_image`, stereo_keypoint_matcher.cpp:166-187. The costs are resized with zeros. -/
def Matcher.keypointIndices (m : Matcher K) (leftKps rightKps : List (KeyPoint K)) (left right : Image)
    (findInRight : Bool) : Outcome (List Int × List K) :=
  let kps := if findInRight then leftKps else rightKps
  let others := if findInRight then rightKps else leftKps
  forLoop kps.length (fun i s => getAt kps i >>= fun kp =>
    m.keypointIndex kp others left right findInRight 0 >>= fun r =>
    if m.filter = .bidirectional ∧ r.1 ≠ -1 then
      indexInt others r.1 >>= fun other =>
      m.keypointIndex other kps left right (!findInRight) 0 >>= fun back =>
      if back.1 ≠ i then .ok (s.1 ++ [-1], s.2 ++ [r.2]) else .ok (s.1 ++ [r.1], s.2 ++ [r.2])
    else .ok (s.1 ++ [r.1], s.2 ++ [r.2])) ([], [])

/-- The positions of the scan, stereo_keypoint_matcher.cpp:63-65 and 73: from `x` to the left down to zero, or to the right up
to `last`. -/
def scanPositions (leftwards : Bool) (x last : Int) : List Int :=
  if leftwards then (List.range (x + 1).toNat).map (fun k : Nat => x - k)
  else (List.range (last - x + 1).toNat).map (fun k : Nat => x + k)

/-- The result of `keypoint_in_other_image`: the keypoint, the cost and the flag. Source: stereo_keypoint_matcher.cpp:35-98. -/
structure Scan (K : Type) where
  keypoint : KeyPoint K
  cost : K
  matched : Bool
deriving DecidableEq, Repr

/-- The reverse scan, stereo_keypoint_matcher.cpp:77-89: whether another window of the reference image fits better. -/
def Matcher.reverseScan (m : Matcher K) (costFunction : CostFunction K) (reference searchImage : Image) (refTopLeft : Point)
    (searchTopLeft : Point) (cost : K) : List Int → Outcome Bool
  | [] => .ok true
  | x :: xs =>
    costFunction reference searchImage ⟨x, searchTopLeft.y⟩ searchTopLeft m.window >>= fun c =>
    if x ≠ refTopLeft.x ∧ isBelow c cost = true then .ok false
    else m.reverseScan costFunction reference searchImage refTopLeft searchTopLeft cost xs

/-- The flag `matched`, stereo_keypoint_matcher.cpp:76-92. -/
def Matcher.scanMatched (m : Matcher K) (costFunction : CostFunction K) (reference searchImage : Image) (refTopLeft : Point)
    (searchTopLeft : Point) (s : Search K) (leftwards : Bool) (last : Int) : Outcome Bool :=
  match m.filter with
  | .bidirectional =>
    m.reverseScan costFunction reference searchImage refTopLeft searchTopLeft s.cost
      (scanPositions leftwards searchTopLeft.x last)
  | .ratioTest => .ok (if s.rejected m.ratio then false else true)
  | .unidirectional => .ok true

/-- `keypoint_in_other_image`, stereo_keypoint_matcher.cpp:35-98. If the window of the keypoint is not inside the image the
function returns a default keypoint and sets neither output argument: `none`. -/
def Matcher.keypointScan (m : Matcher K) (kp : KeyPoint K) (left right : Image) (findInRight : Bool) :
    Outcome (Option (Scan K)) :=
  if left.rows ≠ right.rows ∨ left.cols ≠ right.cols then .throws else
  let reference := if findInRight then left else right
  let searchImage := if findInRight then right else left
  let refTopLeft := m.topLeft kp.x kp.y
  if windowWithinImage reference refTopLeft m.window = false then .ok none else
  m.generate reference refTopLeft >>= fun costFunction =>
  (scanPositions findInRight refTopLeft.x (left.cols - m.window.width)).foldlM (fun s x =>
    costFunction reference searchImage refTopLeft ⟨x, refTopLeft.y⟩ m.window >>= fun c => .ok (Search.update s c x))
    (⟨m.maxCost, m.maxCost, refTopLeft.x⟩ : Search K) >>= fun s =>
  let searchTopLeft : Point := ⟨s.best, refTopLeft.y⟩
  m.scanMatched costFunction reference searchImage refTopLeft searchTopLeft s (!findInRight)
    (left.cols - m.window.width) >>= fun matched =>
  .ok (some ⟨{ kp with x := (searchTopLeft.x : K) + (m.window.width : K) / 2
                       y := (searchTopLeft.y : K) + (m.window.height : K) / 2 }, s.cost, matched⟩)

/-- `keypoints_in_other_image`, stereo_keypoint_matcher.cpp:100-113. `bool match;` is not initialised: if the call does not
set it, copying it is undefined behaviour. -/
def Matcher.keypointScans (m : Matcher K) (kps : List (KeyPoint K)) (left right : Image) (findInRight : Bool) :
    Outcome (List (Scan K)) :=
  forLoop kps.length (fun i s => getAt kps i >>= fun kp =>
    m.keypointScan kp left right findInRight >>= fun r =>
    match r with
    | some r => .ok (s ++ [r])
    | none => .ub) []

end

/-! ### stereo_equations-inl.hpp -/

omit [LinearOrder K] in
/-- `v[i]` of a fixed size vector with three coefficients. In stereo_equations-inl.hpp:24-30. -/
def coeff3 (v : Fin 3 → K) (i : Nat) : Outcome K := if h : i < 3 then .ok (v ⟨i, h⟩) else .ub

/-- `stereo_backproject`, stereo_equations-inl.hpp:8-19. -/
def backproject (c : Fin 3 → K) (K' : Matrix (Fin 3) (Fin 3) K) (baseline : K) : Outcome (Fin 3 → K) :=
  let uDiff := c 0 - c 1
  if uDiff = 0 then .throws else
    .ok fun i => baseline * (![c 0 - K' 0 2, K' 0 0 * (c 2 - K' 1 2) / K' 1 1, K' 0 0] : Fin 3 → K) i / uDiff

/-- `stereo_project` with the index of the depth coordinate, stereo_equations-inl.hpp:21-31. -/
def projectAt (depth : Nat) (p : Fin 3 → K) (K' : Matrix (Fin 3) (Fin 3) K) (baseline : K) : Outcome (Fin 3 → K) :=
  coeff3 p depth >>= fun z =>
  if z ≤ 0 then .throws else
    .ok fun i => (![K' 0 2, K' 0 2, K' 1 2] : Fin 3 → K) i +
      (![K' 0 0 * p 0, K' 0 0 * (p 0 - baseline), K' 1 1 * p 1] : Fin 3 → K) i / z

/-- `stereo_project`: the code reads `point[3]`. Source: stereo_equations-inl.hpp:21-31. -/
def project (p : Fin 3 → K) (K' : Matrix (Fin 3) (Fin 3) K) (baseline : K) : Outcome (Fin 3 → K) :=
  projectAt 3 p K' baseline

end Stereo

end Serpent
