import Verif.Model.EigenExt
import Mathlib.Analysis.SpecialFunctions.Complex.Arg

/-!
# Model of the quaternions of Eigen (`Eigen::Quaterniond`, `Eigen::AngleAxisd`) and of `eigen_ros::Pose`

Eigen is a library the code is linked with: these definitions follow Eigen 3.3's `Quaternion.h` and `AngleAxis.h` over the
real numbers.
-/

namespace Serpent

namespace EigenExt

open Matrix

/-- `Eigen::Quaterniond`. The type of `Pose::orientation`, eigen_ros pose.hpp:10-28. -/
@[ext] structure Quat where
  w : ℝ
  x : ℝ
  y : ℝ
  z : ℝ

namespace Quat

/-- Product of quaternions. Used in imu.cpp:23-40. -/
def mul (a b : Quat) : Quat :=
  { w := a.w * b.w - a.x * b.x - a.y * b.y - a.z * b.z
    x := a.w * b.x + a.x * b.w + a.y * b.z - a.z * b.y
    y := a.w * b.y + a.y * b.w + a.z * b.x - a.x * b.z
    z := a.w * b.z + a.z * b.w + a.x * b.y - a.y * b.x }

instance : Mul Quat := ⟨mul⟩

/-- `conjugate()`. Used by `angularDistance`, mapping-inl.hpp:284-290. -/
def conj (q : Quat) : Quat := ⟨q.w, -q.x, -q.y, -q.z⟩

/-- `Quaterniond(1, 0, 0, 0)`. Default of eigen_ros pose.hpp:12-14. -/
def id : Quat := ⟨1, 0, 0, 0⟩

/-- `q.vec().norm()`. Used by `AngleAxisd(q)`, geometry.hpp:257-268. -/
noncomputable def vecNorm (q : Quat) : ℝ := Real.sqrt (q.x * q.x + q.y * q.y + q.z * q.z)

/-- `toRotationMatrix()`. Used in eigen_ros pose.cpp:51-53. -/
def toMatrix (q : Quat) : Matrix (Fin 3) (Fin 3) ℝ :=
  let tx := 2 * q.x
  let ty := 2 * q.y
  let tz := 2 * q.z
  let twx := tx * q.w
  let twy := ty * q.w
  let twz := tz * q.w
  let txx := tx * q.x
  let txy := ty * q.x
  let txz := tz * q.x
  let tyy := ty * q.y
  let tyz := tz * q.y
  let tzz := tz * q.z
  !![1 - (tyy + tzz), txy - twz, txz + twy;
     txy + twz, 1 - (txx + tzz), tyz - twx;
     txz - twy, tyz + twx, 1 - (txx + tyy)]

/-- `Quaterniond(matrix)` (`quaternionbase_assign_impl`). Used in eigen_ros pose.cpp:20-21. -/
noncomputable def ofMatrix (m : Matrix (Fin 3) (Fin 3) ℝ) : Quat :=
  let t := m 0 0 + m 1 1 + m 2 2
  if t > 0 then
    let s := Real.sqrt (t + 1)
    let r := 1 / 2 / s
    ⟨1 / 2 * s, (m 2 1 - m 1 2) * r, (m 0 2 - m 2 0) * r, (m 1 0 - m 0 1) * r⟩
  else if m 1 1 > m 0 0 then
    if m 2 2 > m 1 1 then
      let s := Real.sqrt (m 2 2 - m 0 0 - m 1 1 + 1)
      let r := 1 / 2 / s
      ⟨(m 1 0 - m 0 1) * r, (m 0 2 + m 2 0) * r, (m 1 2 + m 2 1) * r, 1 / 2 * s⟩
    else
      let s := Real.sqrt (m 1 1 - m 2 2 - m 0 0 + 1)
      let r := 1 / 2 / s
      ⟨(m 0 2 - m 2 0) * r, (m 0 1 + m 1 0) * r, 1 / 2 * s, (m 2 1 + m 1 2) * r⟩
  else
    if m 2 2 > m 0 0 then
      let s := Real.sqrt (m 2 2 - m 0 0 - m 1 1 + 1)
      let r := 1 / 2 / s
      ⟨(m 1 0 - m 0 1) * r, (m 0 2 + m 2 0) * r, (m 1 2 + m 2 1) * r, 1 / 2 * s⟩
    else
      let s := Real.sqrt (m 0 0 - m 1 1 - m 2 2 + 1)
      let r := 1 / 2 / s
      ⟨(m 2 1 - m 1 2) * r, 1 / 2 * s, (m 1 0 + m 0 1) * r, (m 2 0 + m 0 2) * r⟩

/-- `std::atan2(y, x)`. Used by `AngleAxisd(q)`, geometry.hpp:257-268. -/
noncomputable def atan2 (y x : ℝ) : ℝ := Complex.arg ⟨x, y⟩

/-- `a.angularDistance(b)`. Used in mapping-inl.hpp:284-290. -/
noncomputable def angularDistance (a b : Quat) : ℝ :=
  let d := a * b.conj
  2 * atan2 d.vecNorm |d.w|

/-- `AngleAxisd(q).angle()` (the distinction of very small norms is a matter of rounding). Used in geometry.hpp:257-268. -/
noncomputable def angle (q : Quat) : ℝ := if q.vecNorm ≠ 0 then 2 * atan2 q.vecNorm |q.w| else 0

/-- `AngleAxisd(q).axis()`. Used in geometry.hpp:257-268. -/
noncomputable def axis (q : Quat) : Fin 3 → ℝ :=
  if q.vecNorm ≠ 0 then
    let n' := if q.w < 0 then -q.vecNorm else q.vecNorm
    ![q.x / n', q.y / n', q.z / n']
  else ![1, 0, 0]

/-- `axis() * angle()` of `AngleAxisd(q)`. Used in geometry.hpp:257-268. -/
noncomputable def rotVec (q : Quat) : Fin 3 → ℝ := fun i => q.axis i * q.angle

end Quat

/-- `AngleAxisd(R)`: `axis() * angle()`; Eigen converts to a quaternion first. Used in geometry.hpp:257-268 and precomputed_transform_components.hpp:32-42. -/
noncomputable def rotVecOfMatrix (R : Matrix (Fin 3) (Fin 3) ℝ) : Fin 3 → ℝ := (Quat.ofMatrix R).rotVec

/-- `linear_rates`, geometry.hpp:257-268, with Eigen's conversion to a rotation vector. -/
noncomputable def linearRatesEigen (pose1 pose2 : Iso ℝ) (dt : ℝ) : Outcome (Fin 3 ⊕ Fin 3 → ℝ) :=
  linearRates rotVecOfMatrix pose1 pose2 dt

/-- `PrecomputedTransformComponents(transform)`, precomputed_transform_components.hpp:32-42. -/
noncomputable def componentsOfTransform (T : Iso ℝ) : Components :=
  let q := Quat.ofMatrix T.R
  let a := q.angle
  { R := T.R, r := fun i => q.axis i * a, t := T.t, a := a, sina := Real.sin a, cosa := Real.cos a }

end EigenExt

end Serpent
