import Verif.Model.IcpPlaneDx2
import Verif.Lemmas.IcpNodes

/-!
# The entries of `PointToPlaneIcpNonlinearModel::compute_half_d2F_dx2`

Generated by a script that searched the entries for multiples of the derivatives of `IcpCanonical`.
-/

namespace Serpent

namespace Icp

open Lidar

set_option linter.unusedTactic false
set_option linter.unreachableTactic false

namespace PlaneDx2

open Lidar.PlaneDx2

theorem entry00 (e : Env) (ha : e.a ≠ 0) (hr : e.rx2 + e.ry2 + e.rz2 = e.a2) : Lidar.PlaneDx2.e00 e = ndE e 0 * ndE e 0 + nE e * nddE e 0 0 := by
  unfold Lidar.PlaneDx2.e00
  rw [node93 e ha, node94 e ha hr, node95 e ha hr, node96 e ha]
  unfold_names
  try field_simp
  try ring

theorem entry01 (e : Env) (ha : e.a ≠ 0) (hr : e.rx2 + e.ry2 + e.rz2 = e.a2) : Lidar.PlaneDx2.e01 e = ndE e 0 * ndE e 1 + nE e * nddE e 0 1 := by
  unfold Lidar.PlaneDx2.e01
  rw [node97 e ha hr, node98 e ha hr, node95 e ha hr, node96 e ha]
  unfold_names
  try field_simp
  try ring

theorem entry02 (e : Env) (ha : e.a ≠ 0) (hr : e.rx2 + e.ry2 + e.rz2 = e.a2) : Lidar.PlaneDx2.e02 e = ndE e 0 * ndE e 2 + nE e * nddE e 0 2 := by
  unfold Lidar.PlaneDx2.e02
  rw [node99 e ha hr, node100 e ha hr, node95 e ha hr, node96 e ha]
  unfold_names
  try field_simp
  try ring

theorem entry03 (e : Env) (ha : e.a ≠ 0) : Lidar.PlaneDx2.e03 e = e.nx * ndE e 0 := by
  unfold Lidar.PlaneDx2.e03
  rw [node101 e ha]
  unfold_names
  try field_simp
  try ring

theorem entry04 (e : Env) (ha : e.a ≠ 0) : Lidar.PlaneDx2.e04 e = e.ny * ndE e 0 := by
  unfold Lidar.PlaneDx2.e04
  rw [node101 e ha]
  unfold_names
  try field_simp
  try ring

theorem entry05 (e : Env) (ha : e.a ≠ 0) : Lidar.PlaneDx2.e05 e = e.nz * ndE e 0 := by
  unfold Lidar.PlaneDx2.e05
  rw [node101 e ha]
  unfold_names
  try field_simp
  try ring

theorem entry10 (e : Env) (ha : e.a ≠ 0) (hr : e.rx2 + e.ry2 + e.rz2 = e.a2) : Lidar.PlaneDx2.e10 e = ndE e 1 * ndE e 0 + nE e * nddE e 0 1 := by
  unfold Lidar.PlaneDx2.e10
  rw [node97 e ha hr, node94 e ha hr, node102 e ha hr, node96 e ha]
  unfold_names
  try field_simp
  try ring

theorem entry11 (e : Env) (ha : e.a ≠ 0) (hr : e.rx2 + e.ry2 + e.rz2 = e.a2) : Lidar.PlaneDx2.e11 e = ndE e 1 * ndE e 1 + nE e * nddE e 1 1 := by
  unfold Lidar.PlaneDx2.e11
  rw [node103 e ha, node98 e ha hr, node102 e ha hr, node96 e ha]
  unfold_names
  try field_simp
  try ring

theorem entry12 (e : Env) (ha : e.a ≠ 0) (hr : e.rx2 + e.ry2 + e.rz2 = e.a2) : Lidar.PlaneDx2.e12 e = ndE e 1 * ndE e 2 + nE e * nddE e 1 2 := by
  unfold Lidar.PlaneDx2.e12
  rw [node104 e ha hr, node100 e ha hr, node102 e ha hr, node96 e ha]
  unfold_names
  try field_simp
  try ring

theorem entry13 (e : Env) (ha : e.a ≠ 0) : Lidar.PlaneDx2.e13 e = e.nx * ndE e 1 := by
  unfold Lidar.PlaneDx2.e13
  rw [node105 e ha]
  unfold_names
  try field_simp
  try ring

theorem entry14 (e : Env) (ha : e.a ≠ 0) : Lidar.PlaneDx2.e14 e = e.ny * ndE e 1 := by
  unfold Lidar.PlaneDx2.e14
  rw [node105 e ha]
  unfold_names
  try field_simp
  try ring

theorem entry15 (e : Env) (ha : e.a ≠ 0) : Lidar.PlaneDx2.e15 e = e.nz * ndE e 1 := by
  unfold Lidar.PlaneDx2.e15
  rw [node105 e ha]
  unfold_names
  try field_simp
  try ring

theorem entry20 (e : Env) (ha : e.a ≠ 0) (hr : e.rx2 + e.ry2 + e.rz2 = e.a2) : Lidar.PlaneDx2.e20 e = ndE e 2 * ndE e 0 + nE e * nddE e 0 2 := by
  unfold Lidar.PlaneDx2.e20
  rw [node99 e ha hr, node94 e ha hr, node106 e ha hr, node96 e ha]
  unfold_names
  try field_simp
  try ring

theorem entry21 (e : Env) (ha : e.a ≠ 0) (hr : e.rx2 + e.ry2 + e.rz2 = e.a2) : Lidar.PlaneDx2.e21 e = ndE e 2 * ndE e 1 + nE e * nddE e 1 2 := by
  unfold Lidar.PlaneDx2.e21
  rw [node104 e ha hr, node98 e ha hr, node106 e ha hr, node96 e ha]
  unfold_names
  try field_simp
  try ring

theorem entry22 (e : Env) (ha : e.a ≠ 0) (hr : e.rx2 + e.ry2 + e.rz2 = e.a2) : Lidar.PlaneDx2.e22 e = ndE e 2 * ndE e 2 + nE e * nddE e 2 2 := by
  unfold Lidar.PlaneDx2.e22
  rw [node107 e ha, node100 e ha hr, node106 e ha hr, node96 e ha]
  unfold_names
  try field_simp
  try ring

theorem entry23 (e : Env) (ha : e.a ≠ 0) : Lidar.PlaneDx2.e23 e = e.nx * ndE e 2 := by
  unfold Lidar.PlaneDx2.e23
  rw [node108 e ha]
  unfold_names
  try field_simp
  try ring

theorem entry24 (e : Env) (ha : e.a ≠ 0) : Lidar.PlaneDx2.e24 e = e.ny * ndE e 2 := by
  unfold Lidar.PlaneDx2.e24
  rw [node108 e ha]
  unfold_names
  try field_simp
  try ring

theorem entry25 (e : Env) (ha : e.a ≠ 0) : Lidar.PlaneDx2.e25 e = e.nz * ndE e 2 := by
  unfold Lidar.PlaneDx2.e25
  rw [node108 e ha]
  unfold_names
  try field_simp
  try ring

theorem entry30 (e : Env) (ha : e.a ≠ 0) (hr : e.rx2 + e.ry2 + e.rz2 = e.a2) : Lidar.PlaneDx2.e30 e = e.nx * ndE e 0 := by
  unfold Lidar.PlaneDx2.e30
  rw [node94 e ha hr]
  unfold_names
  try field_simp
  try ring

theorem entry31 (e : Env) (ha : e.a ≠ 0) (hr : e.rx2 + e.ry2 + e.rz2 = e.a2) : Lidar.PlaneDx2.e31 e = e.nx * ndE e 1 := by
  unfold Lidar.PlaneDx2.e31
  rw [node98 e ha hr]
  unfold_names
  try field_simp
  try ring

theorem entry32 (e : Env) (ha : e.a ≠ 0) (hr : e.rx2 + e.ry2 + e.rz2 = e.a2) : Lidar.PlaneDx2.e32 e = e.nx * ndE e 2 := by
  unfold Lidar.PlaneDx2.e32
  rw [node100 e ha hr]
  unfold_names
  try field_simp
  try ring

theorem entry33 (e : Env) : Lidar.PlaneDx2.e33 e = e.nx * e.nx := by
  unfold Lidar.PlaneDx2.e33
  unfold_names
  try ring

theorem entry34 (e : Env) : Lidar.PlaneDx2.e34 e = e.nx * e.ny := by
  unfold Lidar.PlaneDx2.e34
  unfold_names
  try ring

theorem entry35 (e : Env) : Lidar.PlaneDx2.e35 e = e.nx * e.nz := by
  unfold Lidar.PlaneDx2.e35
  unfold_names
  try ring

theorem entry40 (e : Env) (ha : e.a ≠ 0) (hr : e.rx2 + e.ry2 + e.rz2 = e.a2) : Lidar.PlaneDx2.e40 e = e.ny * ndE e 0 := by
  unfold Lidar.PlaneDx2.e40
  rw [node94 e ha hr]
  unfold_names
  try field_simp
  try ring

theorem entry41 (e : Env) (ha : e.a ≠ 0) (hr : e.rx2 + e.ry2 + e.rz2 = e.a2) : Lidar.PlaneDx2.e41 e = e.ny * ndE e 1 := by
  unfold Lidar.PlaneDx2.e41
  rw [node98 e ha hr]
  unfold_names
  try field_simp
  try ring

theorem entry42 (e : Env) (ha : e.a ≠ 0) (hr : e.rx2 + e.ry2 + e.rz2 = e.a2) : Lidar.PlaneDx2.e42 e = e.ny * ndE e 2 := by
  unfold Lidar.PlaneDx2.e42
  rw [node100 e ha hr]
  unfold_names
  try field_simp
  try ring

theorem entry43 (e : Env) : Lidar.PlaneDx2.e43 e = e.ny * e.nx := by
  unfold Lidar.PlaneDx2.e43
  unfold_names
  try ring

theorem entry44 (e : Env) : Lidar.PlaneDx2.e44 e = e.ny * e.ny := by
  unfold Lidar.PlaneDx2.e44
  unfold_names
  try ring

theorem entry45 (e : Env) : Lidar.PlaneDx2.e45 e = e.ny * e.nz := by
  unfold Lidar.PlaneDx2.e45
  unfold_names
  try ring

theorem entry50 (e : Env) (ha : e.a ≠ 0) (hr : e.rx2 + e.ry2 + e.rz2 = e.a2) : Lidar.PlaneDx2.e50 e = e.nz * ndE e 0 := by
  unfold Lidar.PlaneDx2.e50
  rw [node94 e ha hr]
  unfold_names
  try field_simp
  try ring

theorem entry51 (e : Env) (ha : e.a ≠ 0) (hr : e.rx2 + e.ry2 + e.rz2 = e.a2) : Lidar.PlaneDx2.e51 e = e.nz * ndE e 1 := by
  unfold Lidar.PlaneDx2.e51
  rw [node98 e ha hr]
  unfold_names
  try field_simp
  try ring

theorem entry52 (e : Env) (ha : e.a ≠ 0) (hr : e.rx2 + e.ry2 + e.rz2 = e.a2) : Lidar.PlaneDx2.e52 e = e.nz * ndE e 2 := by
  unfold Lidar.PlaneDx2.e52
  rw [node100 e ha hr]
  unfold_names
  try field_simp
  try ring

theorem entry53 (e : Env) : Lidar.PlaneDx2.e53 e = e.nz * e.nx := by
  unfold Lidar.PlaneDx2.e53
  unfold_names
  try ring

theorem entry54 (e : Env) : Lidar.PlaneDx2.e54 e = e.nz * e.ny := by
  unfold Lidar.PlaneDx2.e54
  unfold_names
  try ring

theorem entry55 (e : Env) : Lidar.PlaneDx2.e55 e = e.nz * e.nz := by
  unfold Lidar.PlaneDx2.e55
  unfold_names
  try ring

end PlaneDx2

end Icp

end Serpent
