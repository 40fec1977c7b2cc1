import Verif.Basic.Outcome
import Mathlib.Data.Matrix.Basic
import Mathlib.Data.Matrix.Block
import Mathlib.LinearAlgebra.Matrix.Notation
import Mathlib.Analysis.SpecialFunctions.Trigonometric.Inverse
import Mathlib.Analysis.SpecialFunctions.Sqrt

/-!
# Model of `eigen_ext` (matrix.hpp, covariance.hpp, geometry.hpp, precomputed_transform_components.hpp)

Simplifications (apply to the whole file):
* Floating point numbers are real numbers, or elements of a field `K` (no rounding, no infinities, no NaN; where the code
  would produce NaN the model says so).
* 6x6 matrices made of 3x3 blocks are indexed by `Fin 3 ⊕ Fin 3`.
-/

namespace Serpent

namespace EigenExt

open Matrix

variable {K : Type}

/-! ### covariance.hpp -/

/-- `m(i, j)` with `Eigen::Index` arguments; out of range is undefined behaviour (the assertion is disabled). Used in
matrix.hpp:98-108. -/
def coeff {m n : Nat} (M : Matrix (Fin m) (Fin n) K) (i j : Nat) : Outcome K :=
  if h : i < m ∧ j < n then .ok (M ⟨i, h.1⟩ ⟨j, h.2⟩) else .ub

/-- `m.block(i0, j0, rows, cols)(i, j)` for `i < rows`, `j < cols`. Used in covariance.hpp:58-75. -/
def block {m n : Nat} (M : Matrix (Fin m) (Fin n) K) (i0 j0 i j : Nat) : Outcome K := coeff M (i0 + i) (j0 + j)

/-- The comma initialiser `<< a, b, c, d` of four blocks, where the blocks of the first row have `r` rows and the blocks of the
first column have `c` columns: coefficient `(i, j)`. Used in covariance.hpp:58-75. -/
def comma4 (r c : Nat) (a b d e : Nat → Nat → Outcome K) (i j : Nat) : Outcome K :=
  if i < r then if j < c then a i j else b i (j - c)
  else if j < c then d (i - r) j else e (i - r) (j - c)

/-- The matrix of coefficients that are all defined. Result of covariance.hpp:58-75. -/
noncomputable def allOk {m n : Nat} (f : Nat → Nat → Outcome K) (h : ∀ (i : Fin m) (j : Fin n), ∃ a, f i j = .ok a) :
    Matrix (Fin m) (Fin n) K :=
  fun i j => (h i j).choose

open Classical in
/-- `reorder_covariance`, covariance.hpp:58-75. `m × n` is the (fixed) size of `Derived`. -/
noncomputable def reorderCovariance {m n : Nat} (C : Matrix (Fin m) (Fin n) K) (boundary : Nat) :
    Outcome (Matrix (Fin m) (Fin n) K) :=
  if boundary = 0 then .throws
  else if m ≠ n then .throws
  else if boundary ≥ m then .throws
  else
    let size := m
    let f := comma4 (size - boundary) (size - boundary) (block C boundary boundary) (block C boundary 0)
      (block C 0 boundary) (block C 0 0)
    if h : ∀ (i : Fin m) (j : Fin n), ∃ a, f i j = .ok a then .ok (allOk f h) else .ub

/-! ### matrix.hpp -/

/-- The matrix after column step `k` of the Cholesky decomposition, where `x` is the square of the new diagonal coefficient:
`m(k,k) = sqrt(x); m(k+1..,k) = (m(k+1..,k) - m(k+1..,0..k) m(k,0..k)ᵀ) / sqrt(x)`. Called by matrix.hpp:92-96. -/
noncomputable def lltNext {n : Nat} (A : Matrix (Fin n) (Fin n) ℝ) (k : Fin n) (x : ℝ) : Matrix (Fin n) (Fin n) ℝ :=
  fun i j =>
    if j = k then
      if i = k then Real.sqrt x
      else if k < i then (A i k - ∑ l ∈ Finset.univ.filter (· < k), A i l * A k l) / Real.sqrt x
      else A i j
    else A i j

/-- One column step `k` of the unblocked Cholesky decomposition of `Eigen::LLT<Derived>` (`Lower`, in place): `x = m(k,k) -
|m(k,0..k)|²; if (x <= 0) return k;`, then as in `lltNext`. (Eigen uses a blocked variant of the same decomposition from size 32
on.) Called by matrix.hpp:92-96. -/
noncomputable def lltStep {n : Nat} (A : Matrix (Fin n) (Fin n) ℝ) (k : Fin n) : Option (Matrix (Fin n) (Fin n) ℝ) :=
  let x := A k k - ∑ j ∈ Finset.univ.filter (· < k), A k j ^ 2
  if x ≤ 0 then none else some (lltNext A k x)

/-- The column loop. Called by matrix.hpp:92-96. -/
noncomputable def lltLoop {n : Nat} : List (Fin n) → Matrix (Fin n) (Fin n) ℝ → Option (Matrix (Fin n) (Fin n) ℝ)
  | [], A => some A
  | k :: ks, A => (lltStep A k).bind (lltLoop ks)

/-- `is_positive_definite`, matrix.hpp:92-96. -/
noncomputable def isPositiveDefinite {n : Nat} (A : Matrix (Fin n) (Fin n) ℝ) : Bool :=
  (lltLoop (List.finRange n) A).isSome

/-- Inner loop of `is_symmetric`, matrix.hpp:101-105: columns `c, c+1, …`; `fuel` columns are left. -/
noncomputable def symmetricRow {m n : Nat} (M : Matrix (Fin m) (Fin n) ℝ) (precision : ℝ) (r : Nat) :
    Nat → Nat → Outcome Bool
  | 0, _ => .ok true
  | fuel + 1, c =>
    coeff M r c >>= fun a => coeff M c r >>= fun b =>
      if |a - b| > precision then .ok false else symmetricRow M precision r fuel (c + 1)

/-- Outer loop of `is_symmetric`, matrix.hpp:100-106: rows `r, r+1, …`; `fuel` rows are left. -/
noncomputable def symmetricRows {m n : Nat} (M : Matrix (Fin m) (Fin n) ℝ) (precision : ℝ) : Nat → Nat → Outcome Bool
  | 0, _ => .ok true
  | fuel + 1, r =>
    symmetricRow M precision r (n - (r + 1)) (r + 1) >>= fun b =>
      if b then symmetricRows M precision fuel (r + 1) else .ok false

/-- `is_symmetric`, matrix.hpp:98-108. -/
noncomputable def isSymmetric {m n : Nat} (M : Matrix (Fin m) (Fin n) ℝ) (precision : ℝ) : Outcome Bool :=
  symmetricRows M precision (m - 1) 0

/-- `is_valid_covariance`, covariance.hpp:46-55, for a square matrix. -/
noncomputable def isValidSquare {n : Nat} (C : Matrix (Fin n) (Fin n) ℝ) (precision : ℝ) : Outcome Bool :=
  if isPositiveDefinite C = false then .ok false
  else isSymmetric C precision >>= fun sym =>
    if sym = false then .ok false
    else .ok (decide (∀ r : Fin n, (r : Nat) < n - 1 → ¬ C r r < 0))

/-- `is_valid_covariance`, covariance.hpp:44-56 (all coefficients are finite). -/
noncomputable def isValidCovariance {m n : Nat} (C : Matrix (Fin m) (Fin n) ℝ) (precision : ℝ) : Outcome Bool :=
  if h : m = n then isValidSquare (C.submatrix (fun i => i) (Fin.cast h)) precision else .ok false

/-- `non_zero_diagonals`, matrix.hpp:116-119 (`minCoeff` of an empty diagonal is undefined behaviour). -/
noncomputable def nonZeroDiagonals {n : Nat} (M : Matrix (Fin (n + 1)) (Fin (n + 1)) ℝ) : Bool :=
  decide (Finset.univ.inf' Finset.univ_nonempty (fun i => M i i) > 0)

/-- `skew_symmetric`, matrix.hpp:135-140. -/
def skewSymmetric [Ring K] (v : Fin 3 → K) : Matrix (Fin 3) (Fin 3) K :=
  !![0, -v 2, v 1; v 2, 0, -v 0; -v 1, v 0, 0]

/-- `from_skew_symmetric`, matrix.hpp:82-90. -/
def fromSkewSymmetric [Field K] [LinearOrder K] (M : Matrix (Fin 3) (Fin 3) K) : Outcome (Fin 3 → K) :=
  if max (max (M 0 0) (M 1 1)) (M 2 2) > 0 then .throws else .ok ![M 2 1, M 0 2, M 1 0]

/-- `safe_normalise`, matrix.hpp:121-133. -/
noncomputable def safeNormalise {n : Nat} (v : Fin n → ℝ) : Outcome (Fin n → ℝ) :=
  let norm := Real.sqrt (∑ i, v i ^ 2)
  if norm = 0 then .throws else .ok (fun i => v i / norm)

/-- `linear_interpolate`, matrix.hpp:110-114. -/
def linearInterpolate [Field K] {m n : Nat} (m1 m2 : Matrix (Fin m) (Fin n) K) (interp : K) : Matrix (Fin m) (Fin n) K :=
  (1 - interp) • m1 + interp • m2

/-! ### geometry.hpp -/

/-- `Eigen::Transform<Scalar, 3, Isometry>`: rotation part and translation. Used in geometry.hpp (eigen_ext):217-315. -/
@[ext] structure Iso (K : Type) where
  R : Matrix (Fin 3) (Fin 3) K
  t : Fin 3 → K

namespace Iso

variable [CommRing K]

/-- Product of two transforms. Used in geometry.hpp (eigen_ext):229-243. -/
def mul (A B : Iso K) : Iso K := ⟨A.R * B.R, A.R *ᵥ B.t + A.t⟩

/-- `Isometry3::Identity()`. Used in body_frames.cpp:28. -/
def id : Iso K := ⟨1, 0⟩

/-- `inverse()` in `Isometry` mode: the rotation part is transposed. Used in geometry.hpp (eigen_ext):223-243. -/
def inv (A : Iso K) : Iso K := ⟨A.Rᵀ, -(A.Rᵀ *ᵥ A.t)⟩

/-- `T * p`. Used in pclpointcloud_transform.hpp (impl):44. -/
def apply (A : Iso K) (p : Fin 3 → K) : Fin 3 → K := A.R *ᵥ p + A.t

instance : Mul (Iso K) := ⟨mul⟩
instance : One (Iso K) := ⟨id⟩
instance : Inv (Iso K) := ⟨inv⟩

end Iso

/-- 6x6 matrices in blocks `[rotation, translation]`. Of geometry.hpp (eigen_ext):217-227 and 308-315. -/
abbrev Mat6 (K : Type) := Matrix (Fin 3 ⊕ Fin 3) (Fin 3 ⊕ Fin 3) K

section
variable [CommRing K]

/-- `transform_adjoint`, geometry.hpp:308-315. -/
def transformAdjoint (T : Iso K) : Mat6 K := fromBlocks T.R 0 (skewSymmetric T.t * T.R) T.R

/-- `change_covariance_frame`, geometry.hpp:217-221. -/
def changeCovarianceFrameAdj (C adj : Mat6 K) : Mat6 K := adj * C * adjᵀ

/-- `change_covariance_frame`, geometry.hpp:223-227. -/
def changeCovarianceFrame (C : Mat6 K) (T : Iso K) : Mat6 K := changeCovarianceFrameAdj C (transformAdjoint T)

/-- `change_relative_transform_frame`, geometry.hpp:237-243. -/
def changeRelativeTransformFrame3 (T X Xinv : Iso K) : Iso K := X * T * Xinv

/-- `change_relative_transform_frame`, geometry.hpp:229-235. -/
def changeRelativeTransformFrame (T X : Iso K) : Iso K := changeRelativeTransformFrame3 T X X⁻¹

/-- `compose_transform_covariance`, geometry.hpp:245-255 (`Dim = 3`). -/
def composeTransformCovariance (previous relative : Mat6 K) (T : Iso K) (cross : Mat6 K) : Mat6 K :=
  let adj := transformAdjoint T⁻¹
  adj * previous * adjᵀ + relative + cross * adjᵀ + adj * crossᵀ

/-- `relative_transform`, geometry.hpp:270-275. -/
def relativeTransform (A B : Iso K) : Iso K := A⁻¹ * B

/-- `rotate_point_covariance`, geometry.hpp:277-281. -/
def rotatePointCovariance (C R : Matrix (Fin 3) (Fin 3) K) : Matrix (Fin 3) (Fin 3) K := R * C * Rᵀ

end

/-- `linear_rates`, geometry.hpp:257-268: angular rates, then linear rates. `rotVec` stands for the conversion of a rotation
matrix to `axis() * angle()` by `Eigen::AngleAxis`. -/
def linearRates [Field K] [LinearOrder K] (rotVec : Matrix (Fin 3) (Fin 3) K → Fin 3 → K) (pose1 pose2 : Iso K) (dt : K) :
    Outcome (Fin 3 ⊕ Fin 3 → K) :=
  if dt ≤ 0 then .throws
  else
    let T := relativeTransform pose1 pose2
    .ok (Sum.elim (fun i => rotVec T.R i / dt) (fun i => T.t i / dt))

/-- `std::acos`: NaN (`none`) outside of `[-1, 1]`. Used in geometry.hpp (eigen_ext):198-210. -/
noncomputable def stdAcos (x : ℝ) : Option ℝ := if -1 ≤ x ∧ x ≤ 1 then some (Real.arccos x) else none

/-- `cartesian_to_polar`, geometry.hpp:198-210: range, azimuth, elevation (`none`: NaN). -/
noncomputable def cartesianToPolar (x y z : ℝ) : Outcome (ℝ × Option ℝ × Option ℝ) :=
  let x2PlusY2 := x * x + y * y
  let r := Real.sqrt (x2PlusY2 + z * z)
  if x2PlusY2 = 0 then .throws
  else
    let a' := stdAcos (x / x2PlusY2)
    let a := if y ≥ 0 then a' else a'.map (fun a => 2 * Real.pi - a)
    .ok (r, a, stdAcos (z / r))

/-! ### precomputed_transform_components.hpp -/

/-- `Eigen::AngleAxis::toRotationMatrix` (Rodrigues' formula, with the products in Eigen's order). Used in
precomputed_transform_components.hpp:46-56. -/
noncomputable def angleAxisMatrix (angle : ℝ) (axis : Fin 3 → ℝ) : Matrix (Fin 3) (Fin 3) ℝ :=
  let s := Real.sin angle
  let c := Real.cos angle
  let d := 1 - c
  !![d * axis 0 * axis 0 + c, d * axis 0 * axis 1 - s * axis 2, d * axis 0 * axis 2 + s * axis 1;
     d * axis 0 * axis 1 + s * axis 2, d * axis 1 * axis 1 + c, d * axis 1 * axis 2 - s * axis 0;
     d * axis 0 * axis 2 - s * axis 1, d * axis 1 * axis 2 + s * axis 0, d * axis 2 * axis 2 + c]

/-- Members of `PrecomputedTransformComponents`. Source: precomputed_transform_components.hpp. -/
structure Components where
  R : Matrix (Fin 3) (Fin 3) ℝ
  r : Fin 3 → ℝ
  t : Fin 3 → ℝ
  a : ℝ
  sina : ℝ
  cosa : ℝ

/-- `PrecomputedTransformComponents(r, t)`, precomputed_transform_components.hpp:46-56; `none`: the division by the norm of
`r` gives NaN. -/
noncomputable def componentsOf (r t : Fin 3 → ℝ) : Option Components :=
  let a := Real.sqrt (∑ i, r i ^ 2)
  if a = 0 then none
  else some { R := angleAxisMatrix a (fun i => r i / a), r := r, t := t, a := a, sina := Real.sin a, cosa := Real.cos a }

end EigenExt

end Serpent
