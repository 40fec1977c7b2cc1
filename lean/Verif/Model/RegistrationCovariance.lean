import Verif.Model.EigenExt
import Verif.Model.Arrays
import Mathlib.LinearAlgebra.Matrix.NonsingularInverse
import Mathlib.LinearAlgebra.CrossProduct

/-!
# Model of the covariances of a registration

serpent/include/serpent/front_end/lidar/registration_covariance-inl.hpp ("covariance-inl.hpp") and
pointcloud_tools/include/pointcloud_tools/impl/registration_utilities.hpp ("registration_utilities.hpp"). Simplifications: numbers
are elements of a field; the conversions between `float` and `double` are not modelled; a matrix of `6k` columns is indexed by the
correspondence and by the position in its block; the inverse of a singular matrix is not finite (`none`). The parameters of an
alignment that reach the functions are the rotation vector `r` and the translation `t` of the final transformation.
-/

namespace Serpent

namespace Lidar

open Matrix EigenExt

variable {K : Type}

/-- What is used of a `PointNormalUnit`: position, normal and direction of the beam. Of covariance-inl.hpp:55-98. -/
structure Pt (K : Type) where
  pos : Fin 3 → K
  normal : Fin 3 → K
  unit : Fin 3 → K

section models
variable [CommRing K]

/-- `PointToPointIcpLinearisedModel::compute_half_d2F_dx2`, covariance-inl.hpp:1880-1891. -/
def pointLinDx2 (p : Fin 3 → K) : Mat6 K :=
  fromBlocks (-(skewSymmetric p * skewSymmetric p)) (skewSymmetric p) (-skewSymmetric p) 1

/-- `PointToPointIcpLinearisedModel::compute_half_d2F_dzdx`, covariance-inl.hpp:1893-1907. -/
def pointLinDzdx (r t p q : Fin 3 → K) : Mat6 K :=
  fromBlocks (skewSymmetric p * skewSymmetric r + skewSymmetric (crossProduct p r - t + q)) (-skewSymmetric p)
    (skewSymmetric r + 1) (-1)

/-- `PointToPlaneIcpLinearisedModel::compute_half_d2F_dx2`, covariance-inl.hpp:4082-4095. -/
def planeLinDx2 (p n : Fin 3 → K) : Mat6 K :=
  let c := crossProduct p n
  fromBlocks (vecMulVec c c) (vecMulVec c n) (vecMulVec c n)ᵀ (vecMulVec n n)

/-- `PointToPlaneIcpLinearisedModel::compute_half_d2F_dzdx`, covariance-inl.hpp:4097-4111. -/
def planeLinDzdx (r t p q n : Fin 3 → K) : Mat6 K :=
  let c := crossProduct p n
  let m := crossProduct n r + n
  fromBlocks ((n ⬝ᵥ (q - p - t) - c ⬝ᵥ r) • skewSymmetric n + vecMulVec c m) (-vecMulVec c n) (vecMulVec n m) (-vecMulVec n n)

/-- The two matrices of a correspondence, `Model::process_correspondence`: source and target point. Used in
covariance-inl.hpp:8-37. -/
structure IcpModel (K : Type) where
  dx2 : Pt K → Pt K → Mat6 K
  dzdx : Pt K → Pt K → Mat6 K

/-- `PointToPointIcpLinearisedModel::process_correspondence`, covariance-inl.hpp:197-206 and 218-226. -/
def pointLin (r t : Fin 3 → K) : IcpModel K where
  dx2 s _ := pointLinDx2 s.pos
  dzdx s g := pointLinDzdx r t s.pos g.pos

/-- `PointToPlaneIcpLinearisedModel::process_correspondence`, covariance-inl.hpp:241-252 and 266-276: the normal is that of the
target point. -/
def planeLin (r t : Fin 3 → K) : IcpModel K where
  dx2 s g := planeLinDx2 s.pos g.normal
  dzdx s g := planeLinDzdx r t s.pos g.pos g.normal

/-- `source_cloud->at(index_query)` and `target_cloud->at(index_match)` for all correspondences. In covariance-inl.hpp:12-30. -/
def gather (source target : List (Pt K)) : List (Nat × Nat) → Outcome (List (Pt K × Pt K))
  | [] => .ok []
  | c :: cs =>
    EigenRos.checkedAt source c.1 >>= fun s => EigenRos.checkedAt target c.2 >>= fun t =>
    gather source target cs >>= fun l => .ok ((s, t) :: l)

/-- `half_d2F_dx2` after the loop, covariance-inl.hpp:22-33. -/
def sumDx2 (M : IcpModel K) (l : List (Pt K × Pt K)) : Mat6 K := l.foldl (fun H c => H + M.dx2 c.1 c.2) 0

/-- The columns of `half_d2F_dzdx`. In covariance-inl.hpp:8-37. -/
abbrev Meas (l : List (Pt K × Pt K)) := Fin l.length × (Fin 3 ⊕ Fin 3)

/-- `half_d2F_dzdx` after the loop, covariance-inl.hpp:23-33. -/
def allDzdx (M : IcpModel K) (l : List (Pt K × Pt K)) : Matrix (Fin 3 ⊕ Fin 3) (Meas l) K :=
  fun i j => M.dzdx (l.get j.1).1 (l.get j.1).2 i j.2

/-- `Sigma_z` of `censi_range_covariance`, covariance-inl.hpp:67-94: the two diagonal blocks of each correspondence. -/
def sigmaRange (v : K) (l : List (Pt K × Pt K)) : Matrix (Meas l) (Meas l) K := fun a b =>
  if a.1 = b.1 then
    fromBlocks (v • vecMulVec (l.get a.1).1.unit (l.get a.1).1.unit) 0 0
      (v • vecMulVec (l.get a.1).2.unit (l.get a.1).2.unit) a.2 b.2
  else 0

/-- `unit_vectors`, covariance-inl.hpp:131 and 140-141. -/
def unitVectors (l : List (Pt K × Pt K)) : Meas l → K := fun a => Sum.elim (l.get a.1).1.unit (l.get a.1).2.unit a.2

/-- `Sigma_z` of `censi_range_bias_covariance`, covariance-inl.hpp:147-151. -/
def sigmaRangeBias (v b : K) (l : List (Pt K × Pt K)) : Matrix (Meas l) (Meas l) K :=
  let S := vecMulVec (unitVectors l) (unitVectors l)
  let d := fun a => S a a
  let S := b • S
  S + diagonal fun a => v * d a

end models

section covariances
variable [Field K]

open Classical in
/-- `half_d2F_dx2.inverse()`; `none`: the matrix is singular, the result has coefficients that are not finite. In
covariance-inl.hpp:22-33. -/
noncomputable def inverse (H : Mat6 K) : Option (Mat6 K) := if IsUnit H.det then some H⁻¹ else none

/-- `censi_iid_covariance`, covariance-inl.hpp:8-37, from the correspondences on. -/
noncomputable def censiIid (M : IcpModel K) (v : K) (l : List (Pt K × Pt K)) : Option (Mat6 K) :=
  (inverse (sumDx2 M l)).map fun Hi => v • Hi * (allDzdx M l * (allDzdx M l)ᵀ) * Hi

/-- `censi_range_covariance`, covariance-inl.hpp:55-98. -/
noncomputable def censiRange (M : IcpModel K) (v : K) (l : List (Pt K × Pt K)) : Option (Mat6 K) :=
  (inverse (sumDx2 M l)).map fun Hi => Hi * (allDzdx M l * sigmaRange v l * (allDzdx M l)ᵀ) * Hi

/-- `censi_range_bias_covariance`, covariance-inl.hpp:116-155. -/
noncomputable def censiRangeBias (M : IcpModel K) (v b : K) (l : List (Pt K × Pt K)) : Option (Mat6 K) :=
  (inverse (sumDx2 M l)).map fun Hi => Hi * (allDzdx M l * sigmaRangeBias v b l * (allDzdx M l)ᵀ) * Hi

/-- `lls_iid_covariance`, covariance-inl.hpp:157-184. -/
noncomputable def llsIid (M : IcpModel K) (v : K) (l : List (Pt K × Pt K)) : Option (Mat6 K) :=
  (inverse (sumDx2 M l)).map fun Hi => v • Hi

/-- Any of the four functions on clouds and correspondences, covariance-inl.hpp:12-30 and the same lines of the others: the result
and `correspondence_count`. -/
noncomputable def onClouds {R : Type} (f : List (Pt K × Pt K) → R) (source target : List (Pt K)) (cs : List (Nat × Nat)) :
    Outcome (R × Nat) :=
  gather source target cs >>= fun l => .ok (f l, cs.length)

end covariances

/-! ### Correspondences -/

/-- What is used of `pcl::Registration` and of its search: positions of the clouds, the indices of the source, and the search
for the nearest point, `nearestKSearch(point, 1, ...)`: the index and the squared distance, or `none`. Used in
registration_utilities.hpp:10-49. -/
structure Search (P D : Type) where
  /-- the nearest of the target points -/
  target : P → Option (Nat × D)
  /-- the nearest of the source points -/
  source : P → Option (Nat × D)
  /-- `search->getIndices() == registration.getIndices()`: the search in the source is restricted to the indices -/
  restricted : Bool

/-- One round of the loop, registration_utilities.hpp:30-32 and 43-45: the correspondence that is found for point `p`. -/
def nearestWithin {P D : Type} [LE D] [DecidableLE D] (search : P → Option (Nat × D)) (maxSq : D) (p : P) : Option (Nat × D) :=
  match search p with
  | some (j, d) => if d ≤ maxSq then some (j, d) else none
  | none => none

/-- `registration[i]`, the point of the source with index `indices[i]` (PCL, no check). In registration_utilities.hpp:26-33. -/
def sourcePoint {P : Type} (source : List P) (indices : List Nat) (i : Nat) : Outcome P :=
  EigenRos.getAt indices i >>= fun k => EigenRos.getAt source k

/-- The loop over the source, registration_utilities.hpp:39-46: pairs `(i, index[0])`; the square root of the distance, which is
stored with them, is not modelled. -/
def directCorrespondences {P D : Type} [LE D] [DecidableLE D] (search : P → Option (Nat × D)) (maxSq : D) (transform : P → P)
    (source : List P) (indices : List Nat) : Outcome (List (Nat × Nat)) :=
  EigenRos.forLoop indices.length (fun i (cs : List (Nat × Nat)) =>
    sourcePoint source indices i >>= fun p =>
    .ok (match nearestWithin search maxSq (transform p) with
      | some (j, _) => cs ++ [(i, j)]
      | none => cs)) []

/-- The loop over the target, registration_utilities.hpp:26-33: pairs `(index[0], i)`. -/
def reciprocalCorrespondences {P D : Type} [LE D] [DecidableLE D] (search : P → Option (Nat × D)) (maxSq : D) (inverse : P → P)
    (target : List P) : Outcome (List (Nat × Nat)) :=
  EigenRos.forLoop target.length (fun i (cs : List (Nat × Nat)) =>
    EigenRos.getAt target i >>= fun p =>
    .ok (match nearestWithin search maxSq (inverse p) with
      | some (j, _) => cs ++ [(j, i)]
      | none => cs)) []

/-- `compute_registration_correspondences`, registration_utilities.hpp:10-49; `max` is `getMaxCorrespondenceDistance()`, `transform`
and `inverse` apply the final transformation and its inverse. -/
def correspondences {P D : Type} [Mul D] [LE D] [DecidableLE D] (S : Search P D) (max : D) (transform inverse : P → P)
    (source : List P) (indices : List Nat) (target : List P) (reciprocal : Bool) : Outcome (List (Nat × Nat)) :=
  if reciprocal then
    if S.restricted = false then .throws else reciprocalCorrespondences S.source (max * max) inverse target
  else directCorrespondences S.target (max * max) transform source indices

end Lidar

end Serpent
