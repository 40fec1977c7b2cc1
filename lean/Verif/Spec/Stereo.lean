import Verif.Model.Stereo
import Mathlib.Algebra.BigOperators.Group.Finset.Basic
import Mathlib.Data.Finset.Range

/-!
# Specification of stereo matching
-/

namespace Serpent

namespace Stereo

open Finset

variable {K : Type} [Field K] [LinearOrder K]

/-- `out` are exactly the elements of `xs` that satisfy `P`, in their order, and `idx` their positions. -/
structure Kept {α : Type} (P : α → Prop) (xs out : List α) (idx : List Nat) : Prop where
  increasing : idx.Pairwise (· < ·)
  exact : ∀ i, i ∈ idx ↔ ∃ x, xs[i]? = some x ∧ P x
  items : out.map some = idx.map (fun i => xs[i]?)

/-- `x` is the element of the list at the (signed) index `i`. -/
def At {α : Type} (l : List α) (i : Int) (x : α) : Prop := 0 ≤ i ∧ l[i.toNat]? = some x

/-- The match refers to keypoints that exist. -/
def Refers (query train : List (KeyPoint K)) (m : DMatch K) : Prop :=
  (∃ q, At query m.queryIdx q) ∧ ∃ t, At train m.trainIdx t

/-- The stereo geometry: the left point is strictly to the right of the right point, and the vertical difference is within the
threshold. -/
def Geometry (vertical : K) (l r : KeyPoint K) : Prop := r.x < l.x ∧ |l.y - r.y| ≤ vertical

/-- The depth `fx * b / (xl - xr)` of a point in front of the camera is within bounds. -/
def DepthWithin (fx b near far : K) (l r : KeyPoint K) : Prop :=
  r.x < l.x ∧ near ≤ fx * b / (l.x - r.x) ∧ fx * b / (l.x - r.x) ≤ far

/-- The keypoints of the match are related by `R`. -/
def Related (R : KeyPoint K → KeyPoint K → Prop) (query train : List (KeyPoint K)) (m : DMatch K) : Prop :=
  ∃ q t, At query m.queryIdx q ∧ At train m.trainIdx t ∧ R q t

/-- The window lies inside of the image. -/
def Inside (image : Image) (tl : Point) (w : Size) : Prop :=
  0 ≤ tl.x ∧ tl.x + w.width ≤ image.cols ∧ 0 ≤ tl.y ∧ tl.y + w.height ≤ image.rows

/-- Value of the pixel in row `r` and column `c` of a window. -/
def val (image : Image) (tl : Point) (r c : Nat) : K := ((image.pixel (tl.y + r) (tl.x + c) : Nat) : K)

/-- Sum over a window. -/
def total (w : Size) (f : Nat → Nat → K) : K := ∑ r ∈ range w.height.toNat, ∑ c ∈ range w.width.toNat, f r c

/-- Mean over a window. -/
def mean (w : Size) (f : Nat → Nat → K) : K := total w f / ((w.width * w.height : Int) : K)

/-- Two windows show the same pixels. -/
def SameWindow (i1 i2 : Image) (t1 t2 : Point) (w : Size) : Prop :=
  ∀ r c : Nat, (r : Int) < w.height → (c : Int) < w.width → i1.pixel (t1.y + r) (t1.x + c) = i2.pixel (t2.y + r) (t2.x + c)

/-- Some pixel of the window is not black. -/
def NotBlack (i : Image) (t : Point) (w : Size) : Prop :=
  ∃ r c : Nat, (r : Int) < w.height ∧ (c : Int) < w.width ∧ i.pixel (t.y + r) (t.x + c) ≠ 0

section

variable [FloorRing K]

/-- Top left pixel of the window of (odd) size `w` around the pixel that contains the point. -/
def corner (w : Size) (x y : K) : Point := ⟨⌊x⌋ - (w.width - 1) / 2, ⌊y⌋ - (w.height - 1) / 2⟩

/-- A keypoint of the other image is a candidate: within the vertical threshold, not on the wrong side (a point appears
further left in the right image), and its window is inside of the image. -/
def Candidate (w : Size) (vertical : K) (inRight : Bool) (other : Image) (kp cand : KeyPoint K) : Prop :=
  |cand.y - kp.y| ≤ vertical ∧ (if inRight then cand.x ≤ kp.x else kp.x ≤ cand.x) ∧
    Inside other (corner w cand.x cand.y) w

/-- The keypoint at position `k` of the other image is a candidate, and `d` is the cost of its window. -/
def CostAt (f : CostFunction K) (w : Size) (vertical : K) (inRight : Bool) (left right : Image) (kp : KeyPoint K)
    (search : List (KeyPoint K)) (k : Nat) (d : K) : Prop :=
  ∃ cand, search[k]? = some cand ∧ Candidate w vertical inRight (if inRight then right else left) kp cand ∧
    f (if inRight then left else right) (if inRight then right else left) (corner w kp.x kp.y) (corner w cand.x cand.y) w =
      .ok (some d)

/-- `j` is the first position with the smallest cost `c`, and this is below `max`. -/
def FirstMin (cost : Nat → K → Prop) (max : K) (j : Nat) (c : K) : Prop :=
  cost j c ∧ c < max ∧ ∀ k d, cost k d → c ≤ d ∧ (k < j → c < d)

/-- The keypoint at position `j` of the other image is the best match of `kp`, with cost `c`: the window of `kp` is inside of
its image and, with the cost function generated for it, position `j` is the first with the smallest cost. -/
def Best (m : Matcher K) (inRight : Bool) (left right : Image) (kp : KeyPoint K) (search : List (KeyPoint K)) (j : Nat)
    (c : K) : Prop :=
  Inside (if inRight then left else right) (corner m.window kp.x kp.y) m.window ∧
  ∃ f, m.generate (if inRight then left else right) (corner m.window kp.x kp.y) = .ok f ∧
    FirstMin (CostAt f m.window m.vertical inRight left right kp search) m.maxCost j c

end

end Stereo

end Serpent
