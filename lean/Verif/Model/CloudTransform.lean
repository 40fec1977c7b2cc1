import Verif.Model.EigenExt

/-!
# Model of `pclpointcloud_transform.hpp` and the packed covariances of `point_types.hpp`

Simplifications:
* A coordinate is a number of `K` or `none` (NaN or an infinity). Covariances are numbers.
* `Eigen::Matrix4f` is its upper 3x4 block (`pcl::detail::Transformer` does not read the last row).
* The padding elements `data[3]`, `data_n[3]`, `data_u[3]` are left out.
-/

namespace Serpent

namespace CloudTransform

open Matrix EigenExt

variable {K : Type}

/-- `union { float covariance[6]; struct { xx, xy, xz, yy, yz, zz } }`, point_types.hpp:38-49. -/
structure Packed (K : Type) where
  xx : K
  xy : K
  xz : K
  yy : K
  yz : K
  zz : K
deriving DecidableEq

/-- `getCovarianceMatrix`, point_types.hpp:52-57. -/
def Packed.getMatrix (c : Packed K) : Matrix (Fin 3) (Fin 3) K :=
  !![c.xx, c.xy, c.xz; c.xy, c.yy, c.yz; c.xz, c.yz, c.zz]

/-- `setCovariance`, point_types.hpp:64-71. -/
def Packed.ofMatrix (M : Matrix (Fin 3) (Fin 3) K) : Packed K :=
  ⟨M 0 0, M 0 1, M 0 2, M 1 1, M 1 2, M 2 2⟩

/-- A vector of three float fields; `none`: not finite. Fields of point_types.hpp (pointcloud_tools). -/
abbrev Vec (K : Type) := Fin 3 → Option K

/-- All three fields are finite. As checked in pclpointcloud_transform.hpp (impl):42-59. -/
def Vec.finite? (v : Vec K) : Option (Fin 3 → K) :=
  match v 0, v 1, v 2 with
  | some x, some y, some z => some ![x, y, z]
  | _, _, _ => none

/-- The fields of a point that the transforms touch, and the others (`curvature`, …). Fields of point_types.hpp
(pointcloud_tools):38-71, touched in pclpointcloud_transform.hpp (impl):44-46 and 118-121. -/
structure Point (K F : Type) where
  pos : Vec K
  normal : Vec K
  unit : Vec K
  cov : Packed K
  other : F

/-- `pcl::PointCloud<PointT>`. Argument of pclpointcloud_transform.hpp (impl):11-60. -/
structure Cloud (K F : Type) where
  stamp : Nat
  frame : String
  width : Nat
  height : Nat
  isDense : Bool
  points : List (Point K F)

section
variable [CommRing K]

/-- Arithmetic on fields that are not finite does not give finite results. In pclpointcloud_transform.hpp (impl):44-46. -/
def onFinite (f : (Fin 3 → K) → Fin 3 → K) (v : Vec K) : Vec K :=
  match v.finite? with
  | some p => fun i => some (f p i)
  | none => fun _ => none

/-- `pcl::detail::Transformer<float>::se3`. Used in pclpointcloud_transform.hpp (impl):44 and 118. -/
def se3 (T : Iso K) (v : Vec K) : Vec K := onFinite T.apply v

/-- `pcl::detail::Transformer<float>::so3`. Used in pclpointcloud_transform.hpp (impl):45-46 and 119. -/
def so3 (T : Iso K) (v : Vec K) : Vec K := onFinite (T.R *ᵥ ·) v

variable {F : Type}

/-- Loop body, pclpointcloud_transform.hpp (impl):44-46 and 55-57: `p` is `cloud_in[i]`, `q` is `cloud_out[i]`. -/
def bodyUnit (T : Iso K) (p q : Point K F) : Point K F :=
  { q with pos := se3 T p.pos, normal := so3 T p.normal, unit := so3 T p.unit }

/-- Loop body, pclpointcloud_transform.hpp (impl):118-121 and 131-134. -/
def bodyCov (T : Iso K) (p q : Point K F) : Point K F :=
  { q with pos := se3 T p.pos, normal := so3 T p.normal,
           cov := Packed.ofMatrix (rotatePointCovariance p.cov.getMatrix T.R) }

/-- The two loops, pclpointcloud_transform.hpp (impl):42-59 and 115-135: dense clouds are not checked for values that are not
finite, other points that are not finite are skipped. Each index is read and written once, so the loop is a zip. -/
def loop (body : Point K F → Point K F → Point K F) (isDense : Bool) (ins outs : List (Point K F)) : List (Point K F) :=
  List.zipWith (fun p q => if isDense then body p q else if p.pos.finite?.isNone then q else body p q) ins outs

/-- `points.resize(n)` with value-initialised new points. In pclpointcloud_transform.hpp (impl):24-40. -/
def resize {α : Type} (dflt : α) (l : List α) (n : Nat) : List α := l.take n ++ List.replicate (n - l.length) dflt

/-- A default constructed point: all fields are zero. In pclpointcloud_transform.hpp (impl):24-40. -/
def Point.zero (f : F) : Point K F := ⟨fun _ => some 0, fun _ => some 0, fun _ => some 0, ⟨0, 0, 0, 0, 0, 0⟩, f⟩

/-- Preparation of the output and the loops, pclpointcloud_transform.hpp (impl):24-60 and 97-136 with the cloud bodies
above. `dst = none` is a call with `&cloud_in == &cloud_out`. -/
def transformWith (body : Point K F → Point K F → Point K F) (f0 : F) (src : Cloud K F) (dst : Option (Cloud K F))
    (copyAll : Bool) : Cloud K F :=
  let prepared := match dst with
    | none => src.points
    | some d => if copyAll then src.points else resize (Point.zero f0) d.points src.points.length
  { src with points := loop body src.isDense src.points prepared }

/-- `transform_pointcloud_with_normals_and_unit_vectors`, pclpointcloud_transform.hpp (impl):11-61. -/
def transformUnits (f0 : F) (src : Cloud K F) (dst : Option (Cloud K F)) (T : Iso K) (copyAll : Bool) : Cloud K F :=
  transformWith (bodyUnit T) f0 src dst copyAll

/-- `transform_pointcloud_with_normals_and_covariances`, pclpointcloud_transform.hpp (impl):78-137. -/
def transformCovs (f0 : F) (src : Cloud K F) (dst : Option (Cloud K F)) (T : Iso K) (copyAll : Bool) : Cloud K F :=
  transformWith (bodyCov T) f0 src dst copyAll

end

end CloudTransform

end Serpent
