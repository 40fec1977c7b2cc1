import Mathlib.Data.Rat.Defs
import Mathlib.Algebra.Field.Rat
import Mathlib.Algebra.Field.Defs

/-!
# Specification of image operations

The image plane has its origin at the upper left corner of the image; `x` points to the right and `y` down. The pixel in row `r` and
column `c` is the unit square with the centre `(c + 1/2, r + 1/2)`. Nothing of the model is used here.
-/

namespace Serpent

namespace Camera

/-- The operations on images. -/
inductive Motion where
  /-- a quarter turn clockwise -/
  | cw
  /-- half a turn -/
  | half
  /-- a quarter turn counterclockwise -/
  | ccw
  /-- left and right exchanged -/
  | mirrorX
  /-- top and bottom exchanged -/
  | mirrorY
  /-- both exchanged -/
  | mirrorXY
deriving DecidableEq

/-- Width and height of the result for an image of width `w` and height `h`. -/
def sizeAfter : Motion → Nat × Nat → Nat × Nat
  | .cw, (w, h) => (h, w)
  | .ccw, (w, h) => (h, w)
  | _, s => s

/-- Where a point of the image plane is afterwards. -/
def planeAfter {K : Type} [Ring K] (m : Motion) (s : Nat × Nat) (x : K × K) : K × K :=
  match m with
  | .cw => (s.2 - x.2, x.1)
  | .half => (s.1 - x.1, s.2 - x.2)
  | .ccw => (x.2, s.1 - x.1)
  | .mirrorX => (s.1 - x.1, x.2)
  | .mirrorY => (x.1, s.2 - x.2)
  | .mirrorXY => (s.1 - x.1, s.2 - x.2)

/-- The point of the scene that appears where a point of the scene appeared before (`x` to the right, `y` down, `z` forward). -/
def sceneAfter {K : Type} [Ring K] (m : Motion) (X : K × K × K) : K × K × K :=
  match m with
  | .cw => (-X.2.1, X.1, X.2.2)
  | .half => (-X.1, -X.2.1, X.2.2)
  | .ccw => (X.2.1, -X.1, X.2.2)
  | .mirrorX => (-X.1, X.2.1, X.2.2)
  | .mirrorY => (X.1, -X.2.1, X.2.2)
  | .mirrorXY => (-X.1, -X.2.1, X.2.2)

/-- The same for operations one after the other. -/
def sizeAfterAll : List Motion → Nat × Nat → Nat × Nat
  | [], s => s
  | m :: ms, s => sizeAfterAll ms (sizeAfter m s)
/-- The same for operations one after the other. -/
def planeAfterAll {K : Type} [Ring K] : List Motion → Nat × Nat → K × K → K × K
  | [], _, x => x
  | m :: ms, s, x => planeAfterAll ms (sizeAfter m s) (planeAfter m s x)
/-- The same for operations one after the other. -/
def sceneAfterAll {K : Type} [Ring K] : List Motion → K × K × K → K × K × K
  | [], X => X
  | m :: ms, X => sceneAfterAll ms (sceneAfter m X)

/-- Centre of a pixel. -/
def pixelCentre (r c : Nat) : ℚ × ℚ := (c + 1 / 2, r + 1 / 2)

/-- Where the camera matrix (row by row) projects a point of the scene. -/
def project {K : Type} [Field K] (k : Fin 9 → K) (X : K × K × K) : K × K :=
  let u := k 0 * X.1 + k 1 * X.2.1 + k 2 * X.2.2
  let v := k 3 * X.1 + k 4 * X.2.1 + k 5 * X.2.2
  let w := k 6 * X.1 + k 7 * X.2.1 + k 8 * X.2.2
  (u / w, v / w)

/-- Where the projection matrix (3 x 4, row by row) projects a point of the scene. -/
def projectP {K : Type} [Field K] (p : Fin 12 → K) (X : K × K × K) : K × K :=
  let u := p 0 * X.1 + p 1 * X.2.1 + p 2 * X.2.2 + p 3
  let v := p 4 * X.1 + p 5 * X.2.1 + p 6 * X.2.2 + p 7
  let w := p 8 * X.1 + p 9 * X.2.1 + p 10 * X.2.2 + p 11
  (u / w, v / w)

/-- A camera matrix without skew: focal lengths and centre. -/
def Pinhole {K : Type} [Field K] (k : Fin 9 → K) : Prop := k 1 = 0 ∧ k 3 = 0 ∧ k 6 = 0 ∧ k 7 = 0 ∧ k 8 = 1

end Camera

end Serpent
