import Verif.Model.Quaternion

/-!
# Model of the point types and of the utilities for typed clouds of `pointcloud_tools`

Paths: "types.hpp" is pointcloud_tools/include/pointcloud_tools/point_types.hpp, "types.cpp" is pointcloud_tools/src/point_types.cpp and
"utilities.hpp" is pointcloud_tools/include/pointcloud_tools/impl/pclpointcloud_utilities.hpp.

Simplifications: `float` is the real numbers. The fourth elements of `data`, `data_n`, `data_u` and `data_r` are `none` while they are
indeterminate. Printing is not modelled.
-/

namespace Serpent

namespace PointTypes

open EigenExt Matrix

/-- `data[4]` and the like: x, y, z and the fourth element. Of types.hpp:30-103. -/
structure Quad where
  x : ℝ
  y : ℝ
  z : ℝ
  pad : Option ℝ

/-- `Vector3fMap`. Used in types.hpp:52-103. -/
def Quad.vec (q : Quad) : Fin 3 → ℝ := ![q.x, q.y, q.z]

/-- Assignment to `Vector3fMap`: the fourth element stays. Used in types.cpp:115-150. -/
def Quad.assign (q : Quad) (v : Fin 3 → ℝ) : Quad := { q with x := v 0, y := v 1, z := v 2 }

/-- Reading all four as a `Vector4fMap`; reading an indeterminate value is undefined. Used in types.hpp:89-103. -/
def Quad.vec4 (q : Quad) : Outcome (Fin 4 → ℝ) :=
  match q.pad with
  | some p => .ok ![q.x, q.y, q.z, p]
  | none => .ub

/-! ### Points with a rotation -/

/-- `PointAngleAxis`, types.hpp:199-247. -/
structure PointAngleAxis where
  data : Quad
  r : Quad

/-- `Eigen::AngleAxisf`. Used in types.hpp:199-247. -/
structure AngleAxis where
  angle : ℝ
  axis : Fin 3 → ℝ

/-- `AngleAxisf{quaternion}` (Eigen). Used in types.cpp:126-132. -/
noncomputable def AngleAxis.ofQuat (q : Quat) : AngleAxis := ⟨q.angle, q.axis⟩

/-- `AngleAxisf{matrix}` (Eigen): by way of a quaternion. Used in types.cpp:126-140. -/
noncomputable def AngleAxis.ofMatrix (R : Matrix (Fin 3) (Fin 3) ℝ) : AngleAxis := .ofQuat (.ofMatrix R)

/-- `normalized()` (Eigen): a vector of norm 0 is left as it is. Used in utilities.hpp:16-41. -/
noncomputable def normalized (v : Fin 3 → ℝ) : Fin 3 → ℝ :=
  if 0 < v 0 * v 0 + v 1 * v 1 + v 2 * v 2 then fun i => v i / Real.sqrt (v 0 * v 0 + v 1 * v 1 + v 2 * v 2) else v

namespace PointAngleAxis

/-- `angle()`, types.hpp:89. -/
noncomputable def angle (p : PointAngleAxis) : ℝ := Real.sqrt (p.r.x * p.r.x + p.r.y * p.r.y + p.r.z * p.r.z)

/-- `getAngleAxis()`, types.hpp:90-92. -/
noncomputable def getAngleAxis (p : PointAngleAxis) : AngleAxis := ⟨p.angle, normalized ![p.r.x, p.r.y, p.r.z]⟩

/-- `getRotationMatrix()`, types.hpp:93. -/
noncomputable def getRotationMatrix (p : PointAngleAxis) : Matrix (Fin 3) (Fin 3) ℝ :=
  angleAxisMatrix p.getAngleAxis.angle p.getAngleAxis.axis

/-- `getQuaternion()`, types.hpp:94: `Quaternionf{angle_axis}` (Eigen). -/
noncomputable def getQuaternion (p : PointAngleAxis) : Quat :=
  let a := p.getAngleAxis
  let s := Real.sin (1 / 2 * a.angle)
  ⟨Real.cos (1 / 2 * a.angle), s * a.axis 0, s * a.axis 1, s * a.axis 2⟩

/-- `getIsometry()`, types.hpp:95-97. -/
noncomputable def getIsometry (p : PointAngleAxis) : Iso ℝ := ⟨p.getRotationMatrix, p.data.vec⟩

/-- `setAngleAxis(angle_axis)`, types.hpp:98-103. -/
noncomputable def setAngleAxis (p : PointAngleAxis) (a : AngleAxis) : PointAngleAxis :=
  let v : Fin 3 → ℝ := fun i => a.axis i * a.angle
  { p with r := { p.r with x := v 0, y := v 1, z := v 2 } }

/-- `setPose(position, angle_axis)`, types.hpp:224-227. -/
noncomputable def setPose (p : PointAngleAxis) (position : Fin 3 → ℝ) (a : AngleAxis) : PointAngleAxis :=
  setAngleAxis { p with data := p.data.assign ![position 0, position 1, position 2] } a

/-- `setPose(position, quaternion)`, types.hpp:229-231 and 237-239. -/
noncomputable def setPoseQuat (p : PointAngleAxis) (position : Fin 3 → ℝ) (q : Quat) : PointAngleAxis := p.setPose position (.ofQuat q)

/-- `setPose(position, rotation_matrix)`, types.hpp:233-235 and 241-243. -/
noncomputable def setPoseMatrix (p : PointAngleAxis) (position : Fin 3 → ℝ) (R : Matrix (Fin 3) (Fin 3) ℝ) : PointAngleAxis :=
  p.setPose position (.ofMatrix R)

/-- `setPose(pose)`, types.hpp:220-222. -/
noncomputable def setPoseIso (p : PointAngleAxis) (T : Iso ℝ) : PointAngleAxis := p.setPoseMatrix T.t T.R

/-- The members before the body of a constructor; the values of x, y, z are never read. For types.cpp:115-140. -/
def uninitialised : PointAngleAxis := ⟨⟨0, 0, 0, none⟩, ⟨0, 0, 0, none⟩⟩

/-- `PointAngleAxis()`, types.cpp:146-150. -/
def default : PointAngleAxis := ⟨⟨0, 0, 0, some 1⟩, ⟨0, 0, 0, some 0⟩⟩

/-- `PointAngleAxis(_PointAngleAxis)`, types.cpp:115-124. -/
def copy (p : PointAngleAxis) : PointAngleAxis := ⟨⟨p.data.x, p.data.y, p.data.z, some 1⟩, ⟨p.r.x, p.r.y, p.r.z, some 0⟩⟩

/-- `PointAngleAxis(position, angle_axis)`, types.cpp:130-132. -/
noncomputable def ofAngleAxis (position : Fin 3 → ℝ) (a : AngleAxis) : PointAngleAxis := uninitialised.setPose position a

/-- `PointAngleAxis(position, quaternion)`, types.cpp:134-140. -/
noncomputable def ofQuat (position : Fin 3 → ℝ) (q : Quat) : PointAngleAxis := uninitialised.setPoseQuat position q

/-- `PointAngleAxis(pose)`, types.cpp:126-128, and of a translation and a matrix, 142-144. -/
noncomputable def ofIso (T : Iso ℝ) : PointAngleAxis := uninitialised.setPoseIso T

end PointAngleAxis

/-! ### Points with a covariance or a direction -/

/-- `covariance[6]`, types.hpp:38-49. -/
structure Covariance where
  xx : ℝ
  xy : ℝ
  xz : ℝ
  yy : ℝ
  yz : ℝ
  zz : ℝ

/-- `getCovarianceMatrix()`, types.hpp:52-57. -/
def Covariance.matrix (c : Covariance) : Matrix (Fin 3) (Fin 3) ℝ :=
  !![c.xx, c.xy, c.xz; c.xy, c.yy, c.yz; c.xz, c.yz, c.zz]

/-- `setCovariance(matrix)`, types.hpp:64-71. -/
def Covariance.set (_ : Covariance) (m : Matrix (Fin 3) (Fin 3) ℝ) : Covariance := ⟨m 0 0, m 0 1, m 0 2, m 1 1, m 1 2, m 2 2⟩

/-- `get_unit_outer_product()`, types.hpp:30-32. -/
def unitOuterProduct (u : Quad) : Matrix (Fin 3) (Fin 3) ℝ := Matrix.of fun i j => u.vec i * u.vec j

/-! ### Utilities for typed clouds -/

/-- `convert_ns_to_s`, utilities.hpp:9-13, for points whose time is a floating point number. -/
noncomputable def convertNsToS (times : List ℝ) : List ℝ := times.map fun t => t / 1000000000

/-- `convert_ns_to_s`, utilities.hpp:9-13, for points whose time is a `std::uint32_t`: the quotient, a `double`, is converted back. -/
def convertNsToSInteger (times : List Nat) : List Nat := times.map fun t => t / 1000000000

open Classical in
/-- `check_normals`, utilities.hpp:16-29. -/
noncomputable def checkNormals (normals : List (Fin 3 → ℝ)) (threshold : ℝ) : Nat :=
  normals.foldl (fun n v => if |Real.sqrt (v 0 ^ 2 + v 1 ^ 2 + v 2 ^ 2) - 1| > threshold then n + 1 else n) 0

/-- One column of `extract_unit_vectors`, utilities.hpp:37-39. -/
def setColumn {n : Nat} (M : Matrix (Fin 3) (Fin n) ℝ) (i : Fin n) (v : Fin 3 → ℝ) : Matrix (Fin 3) (Fin n) ℝ :=
  Matrix.of fun k j => if j = i then v k else M k j

/-- `extract_unit_vectors`, utilities.hpp:32-41; `M` is the matrix before the loop, whose coefficients are indeterminate. -/
def extractUnitVectors (points : List Quad) (M : Matrix (Fin 3) (Fin points.length) ℝ) : Matrix (Fin 3) (Fin points.length) ℝ :=
  (List.finRange points.length).foldl (fun M i => setColumn M i ![points[i].x, points[i].y, points[i].z]) M

end PointTypes

end Serpent
