import Verif.Model.PclCloud
import Verif.Model.EigenExt
import Mathlib.Analysis.Real.Sqrt

/-!
# Model of `pointcloud_tools/compute_distances`

Paths: "compute_distances.hpp" is pointcloud_tools/include/pointcloud_tools/impl/compute_distances.hpp.

Simplifications:
* Coordinates of the source are finite. A point of the target is `none` when one of its coordinates is not finite.
* Computations are exact; what is stored in the output is converted by the codec.
* `pcl::KdTreeFLANN` (PCL) is modelled by its contract: points that are not finite are left out, and the search for one neighbour of
  a point returns the least squared distance, or 0 neighbours if there are no points.
* `ros::spin` and the synchroniser (`TimeSynchronizer`, pairs of equal stamps) are not modelled: `callback` is the effect of one pair.
-/

namespace Serpent

namespace Pcl

open EigenRos (forLoop)
open EigenExt (Iso)

/-- Coordinates of a point. Of compute_distances.hpp (impl):61-70. -/
abbrev Vec3 := Fin 3 → ℝ

/-- `pcl::PointCloud<pcl::PointXYZ>`. Arguments of compute_distances.hpp (impl):40-74. -/
structure XyzCloud (P : Type) where
  header : Header
  points : List P

/-- The squared distance. Of compute_distances.hpp (impl):61-70. -/
noncomputable def squaredDistance (p q : Vec3) : ℝ := (p 0 - q 0) ^ 2 + (p 1 - q 1) ^ 2 + (p 2 - q 2) ^ 2

/-- `nearestKSearch(point, 1, ...)` (PCL): the squared distance, if a neighbour is found. Used in compute_distances.hpp
(impl):61-70. -/
noncomputable def nearest (target : List (Option Vec3)) (p : Vec3) : Option ℝ :=
  ((target.filterMap id).map (squaredDistance p)).min?

/-- `transform_target`, compute_distances.hpp:77-84: `pcl::transformPointCloud` (PCL) leaves points that are not finite as they are. -/
noncomputable def transformTarget (target : XyzCloud (Option Vec3)) (T : Iso ℝ) (frame : String) : XyzCloud (Option Vec3) where
  header := { target.header with frame := frame }
  points := target.points.map (fun p => p.map T.apply)

/-- The body of the loop, compute_distances.hpp:61-70. -/
noncomputable def distanceStep (setX setY setZ setD : Cloud → Nat → ℝ → Outcome Cloud) (source : List Vec3) (target : List (Option Vec3))
    (i : Nat) (output : Cloud) : Outcome Cloud :=
  EigenRos.getAt source i >>= fun p =>
  setX output i (p 0) >>= fun output =>
  setY output i (p 1) >>= fun output =>
  setZ output i (p 2) >>= fun output =>
  match nearest target p with
  | some d => setD output i (Real.sqrt d)
  | none => .throws

/-- `compute_distances`, compute_distances.hpp:40-74. -/
noncomputable def computeDistances (cd : Codec ℝ) (source : XyzCloud Vec3) (target : XyzCloud (Option Vec3)) : Outcome Cloud :=
  addFields Cloud.empty ["x", "y", "z", "distance"] .float32 1 >>= fun output =>
  let output := { output with header := source.header, height := 1, width := u32 source.points.length }
  let output := { output with rowStep := u32 (output.pointStep * output.width) }
  let output := { output with data := EigenRos.resize output.data (u32 (output.rowStep * output.height)) 0, isDense := false }
  getField output "x" >>= fun x =>
  setterTyped cd .float32 .float32 x >>= fun setX =>
  getField output "y" >>= fun y =>
  setterTyped cd .float32 .float32 y >>= fun setY =>
  getField output "z" >>= fun z =>
  setterTyped cd .float32 .float32 z >>= fun setZ =>
  getField output "distance" >>= fun d =>
  setterTyped cd .float32 .float32 d >>= fun setD =>
  forLoop source.points.length (distanceStep setX setY setZ setD source.points target.points) output

/-- `callback`, compute_distances.hpp:27-36: what is published. `lookup a b t` is the transform that takes coordinates in frame `b` to
coordinates in frame `a` at time `t`, if it is known within the timeout. -/
noncomputable def distanceCallback (cd : Codec ℝ) (lookup : String → String → Nat → Option (Iso ℝ)) (source : XyzCloud Vec3)
    (target : XyzCloud (Option Vec3)) : Outcome Cloud :=
  match lookup source.header.frame target.header.frame source.header.stamp with
  | none => .throws
  | some T => computeDistances cd source (transformTarget target T source.header.frame)

/-- `main`, compute_distances_main.cpp:8-21: whether the node runs with these parameters, or ends with an exception. -/
def distanceNode (method sourceType targetType : Option String) : Outcome Unit :=
  if method.getD "POINT_TO_POINT" = "POINT_TO_POINT" then
    if sourceType.getD "PointXYZ" = "PointXYZ" ∧ targetType.getD "PointXYZ" = "PointXYZ" then .ok () else .throws
  else .throws

end Pcl

end Serpent
