import Verif.Model.EigenExt

/-!
# Model of the array conversions of `eigen_ros` (eigen_ros.hpp, std_msgs.hpp, statistics_msgs.cpp, eigen_ros.cpp)

Simplifications (apply to the whole file):
* `boost::array` and `std::vector` are lists; indexing out of range is undefined behaviour.
* Scalars are elements of any type `K` (no conversion between `float` and `double`).
* Integers are unbounded.
-/

namespace Serpent

namespace EigenRos

open EigenExt

variable {K : Type}

/-- `for (i = 0; i < n; ++i) s = body(i, s)`. As in eigen_ros.hpp:30-34, std_msgs.hpp:43-47. -/
def forLoop {σ : Type} (n : Nat) (body : Nat → σ → Outcome σ) (s : σ) : Outcome σ :=
  (List.range n).foldlM (fun s i => body i s) s

/-- `a[i] = x`. As in eigen_ros.hpp:30-34. -/
def setAt (a : List K) (i : Nat) (x : K) : Outcome (List K) := if i < a.length then .ok (a.set i x) else .ub

/-- `a[i]`. As in eigen_ros.hpp:21-25. -/
def getAt (a : List K) (i : Nat) : Outcome K :=
  match a[i]? with
  | some x => .ok x
  | none => .ub

/-- `a.at(i)`. As in std_msgs.hpp:30-34 and match_filters.cpp:53-54. -/
def checkedAt (a : List K) (i : Nat) : Outcome K :=
  match a[i]? with
  | some x => .ok x
  | none => .throws

/-- `a.resize(n)`: the new elements are `d`. As in eigen_ros.hpp:53-63 and std_msgs.hpp:37-59. -/
def resize (a : List K) (n : Nat) (d : K) : List K := a.take n ++ List.replicate (n - a.length) d

/-- `m(r, c) = x`. As in eigen_ros.hpp:21-25. -/
def setCoeff {m n : Nat} (M : Matrix (Fin m) (Fin n) K) (r c : Nat) (x : K) : Outcome (Matrix (Fin m) (Fin n) K) :=
  if r < m ∧ c < n then .ok (fun i j => if (i : Nat) = r ∧ (j : Nat) = c then x else M i j) else .ub

/-- The loops that write a matrix into an array, eigen_ros.hpp:30-34 and 58-62, std_msgs.hpp:43-47. -/
def writeArray {m n : Nat} (a : List K) (M : Matrix (Fin m) (Fin n) K) : Outcome (List K) :=
  forLoop m (fun r a => forLoop n (fun c a => coeff M r c >>= fun x => setAt a (n * r + c) x) a) a

/-- The loops that read a matrix from an array: `start` is the index of the first element, `stride` the distance of two
rows. eigen_ros.hpp:21-25 and 46-50 (start 0, stride `n`), std_msgs.hpp:30-34. -/
def readArray {m n : Nat} (a : List K) (start stride : Nat) (M : Matrix (Fin m) (Fin n) K) :
    Outcome (Matrix (Fin m) (Fin n) K) :=
  forLoop m (fun r M => forLoop n (fun c M => getAt a (start + stride * r + c) >>= fun x => setCoeff M r c x) M) M

/-- `to_ros(boost::array&, matrix)`, eigen_ros.hpp:28-35. The length of the array is part of its type. -/
def toFixedArray {m n : Nat} (a : List K) (M : Matrix (Fin m) (Fin n) K) : Outcome (List K) := writeArray a M

/-- `from_ros(boost::array, matrix&)`, eigen_ros.hpp:19-26. -/
def fromFixedArray {m n : Nat} (a : List K) (M : Matrix (Fin m) (Fin n) K) : Outcome (Matrix (Fin m) (Fin n) K) :=
  readArray a 0 n M

/-- `to_ros(std::vector&, matrix)`, eigen_ros.hpp:53-63. -/
def toVector [Zero K] {m n : Nat} (a : List K) (M : Matrix (Fin m) (Fin n) K) : Outcome (List K) :=
  writeArray (resize a (m * n) 0) M

/-- `from_ros(std::vector, matrix&)`, eigen_ros.hpp:37-51. -/
def fromVector {m n : Nat} (a : List K) (M : Matrix (Fin m) (Fin n) K) : Outcome (Matrix (Fin m) (Fin n) K) :=
  if a.length ≠ m * n then .throws else readArray a 0 n M

/-! ### std_msgs/Float64MultiArray -/

/-- `std_msgs::MultiArrayDimension`. Filled in std_msgs.hpp:49-58. -/
structure Dimension where
  label : String
  size : Nat
  stride : Nat
deriving DecidableEq, Repr

/-- `std_msgs::Float64MultiArray`, with its layout. Filled in std_msgs.hpp:37-59. -/
structure MultiArray (K : Type) where
  dim : List Dimension
  offset : Nat
  data : List K
deriving DecidableEq, Repr

/-- A default constructed message. Argument of std_msgs.hpp:38. -/
def MultiArray.empty : MultiArray K := ⟨[], 0, []⟩

/-- `to_ros(Float64MultiArray&, matrix)`, std_msgs.hpp:37-59. The two dimensions are appended to those of the message. -/
def toMultiArray [Zero K] {m n : Nat} (msg : MultiArray K) (M : Matrix (Fin m) (Fin n) K) : Outcome (MultiArray K) :=
  writeArray (resize msg.data (m * n) 0) M >>= fun data =>
    .ok {
      data := data
      offset := 0
      dim := msg.dim ++ [⟨"rows", m, m * n⟩] ++ [⟨"cols", n, n⟩] }

/-- `from_ros(Float64MultiArray, matrix&)`, std_msgs.hpp:23-35. -/
def fromMultiArray {m n : Nat} (msg : MultiArray K) (M : Matrix (Fin m) (Fin n) K) : Outcome (Matrix (Fin m) (Fin n) K) :=
  match msg.dim with
  | [d0, d1] => if d0.size ≠ m ∨ d1.size ≠ n then .throws else readArray msg.data msg.offset d1.stride M
  | _ => .throws

/-! ### statistics_msgs/Covariance -/

/-- `statistics_msgs::Covariance` and `CovarianceFloat32`. Sources: Covariance.msg and CovarianceFloat32.msg of statistics_msgs.
-/
structure CovarianceMsg (K : Type) where
  dimensions : Nat
  matrix : List K
deriving DecidableEq, Repr

/-- `to_ros(Covariance&, matrix)`, statistics_msgs.cpp:29-36 and 44-51. -/
def toCovariance [Zero K] {m n : Nat} (msg : CovarianceMsg K) (M : Matrix (Fin m) (Fin n) K) : Outcome (CovarianceMsg K) :=
  if m ≠ n then .throws else toVector msg.matrix M >>= fun a => .ok ⟨m, a⟩

/-- `from_ros(Covariance, matrix&)`, statistics_msgs.cpp:7-10 and 18-21. After `resize` the coefficients are indeterminate:
`junk`. -/
def fromCovariance (msg : CovarianceMsg K) (junk : Matrix (Fin msg.dimensions) (Fin msg.dimensions) K) :
    Outcome (Matrix (Fin msg.dimensions) (Fin msg.dimensions) K) :=
  fromVector msg.matrix junk

/-! ### Parameters -/

/-- `matrix3d_from_param`, eigen_ros.cpp:5-14: the value of the parameter, if it is set to a list of numbers. The matrix is
not initialised: `junk`. -/
def matrix3dFromParam [Zero K] [One K] (param : Option (List K)) (junk : Matrix (Fin 3) (Fin 3) K) :
    Outcome (Matrix (Fin 3) (Fin 3) K) :=
  let v := param.getD [1, 0, 0, 0, 1, 0, 0, 0, 1]
  forLoop 3 (fun r M => forLoop 3 (fun c M => checkedAt v (r * 3 + c) >>= fun x => setCoeff M r c x) M) junk

end EigenRos

end Serpent
