import Verif.Model.IcpPlaneDzdx
import Verif.Lemmas.IcpNodes

/-!
# The entries of `PointToPlaneIcpNonlinearModel::compute_half_d2F_dzdx`

Generated by a script that searched the entries for multiples of the derivatives of `IcpCanonical`.
-/

namespace Serpent

namespace Icp

open Lidar

set_option linter.unusedTactic false
set_option linter.unreachableTactic false

namespace PlaneDzdx

open Lidar.PlaneDzdx

theorem entry00 (e : Env) (ha : e.a ≠ 0) : Lidar.PlaneDzdx.e00 e = ndE e 0 * nR e 0 + nE e * ndR e 0 0 := by
  unfold Lidar.PlaneDzdx.e00
  rw [node101 e ha, node96 e ha, node109 e ha, node110 e ha]
  unfold_names
  try field_simp
  try ring

theorem entry01 (e : Env) (ha : e.a ≠ 0) : Lidar.PlaneDzdx.e01 e = ndE e 0 * nR e 1 + nE e * ndR e 0 1 := by
  unfold Lidar.PlaneDzdx.e01
  rw [node101 e ha, node96 e ha, node111 e ha, node112 e ha]
  unfold_names
  try field_simp
  try ring

theorem entry02 (e : Env) (ha : e.a ≠ 0) : Lidar.PlaneDzdx.e02 e = ndE e 0 * nR e 2 + nE e * ndR e 0 2 := by
  unfold Lidar.PlaneDzdx.e02
  rw [node101 e ha, node96 e ha, node113 e ha, node114 e ha]
  unfold_names
  try field_simp
  try ring

theorem entry03 (e : Env) (ha : e.a ≠ 0) : Lidar.PlaneDzdx.e03 e = -(e.nx * ndE e 0) := by
  unfold Lidar.PlaneDzdx.e03
  rw [node101 e ha]
  unfold_names
  try field_simp
  try ring

theorem entry04 (e : Env) (ha : e.a ≠ 0) : Lidar.PlaneDzdx.e04 e = -(e.ny * ndE e 0) := by
  unfold Lidar.PlaneDzdx.e04
  rw [node101 e ha]
  unfold_names
  try field_simp
  try ring

theorem entry05 (e : Env) (ha : e.a ≠ 0) : Lidar.PlaneDzdx.e05 e = -(e.nz * ndE e 0) := by
  unfold Lidar.PlaneDzdx.e05
  rw [node101 e ha]
  unfold_names
  try field_simp
  try ring

theorem entry10 (e : Env) (ha : e.a ≠ 0) : Lidar.PlaneDzdx.e10 e = ndE e 1 * nR e 0 + nE e * ndR e 1 0 := by
  unfold Lidar.PlaneDzdx.e10
  rw [node105 e ha, node96 e ha, node115 e ha, node110 e ha]
  unfold_names
  try field_simp
  try ring

theorem entry11 (e : Env) (ha : e.a ≠ 0) : Lidar.PlaneDzdx.e11 e = ndE e 1 * nR e 1 + nE e * ndR e 1 1 := by
  unfold Lidar.PlaneDzdx.e11
  rw [node105 e ha, node96 e ha, node116 e ha, node112 e ha]
  unfold_names
  try field_simp
  try ring

theorem entry12 (e : Env) (ha : e.a ≠ 0) : Lidar.PlaneDzdx.e12 e = ndE e 1 * nR e 2 + nE e * ndR e 1 2 := by
  unfold Lidar.PlaneDzdx.e12
  rw [node105 e ha, node96 e ha, node117 e ha, node114 e ha]
  unfold_names
  try field_simp
  try ring

theorem entry13 (e : Env) (ha : e.a ≠ 0) : Lidar.PlaneDzdx.e13 e = -(e.nx * ndE e 1) := by
  unfold Lidar.PlaneDzdx.e13
  rw [node105 e ha]
  unfold_names
  try field_simp
  try ring

theorem entry14 (e : Env) (ha : e.a ≠ 0) : Lidar.PlaneDzdx.e14 e = -(e.ny * ndE e 1) := by
  unfold Lidar.PlaneDzdx.e14
  rw [node105 e ha]
  unfold_names
  try field_simp
  try ring

theorem entry15 (e : Env) (ha : e.a ≠ 0) : Lidar.PlaneDzdx.e15 e = -(e.nz * ndE e 1) := by
  unfold Lidar.PlaneDzdx.e15
  rw [node105 e ha]
  unfold_names
  try field_simp
  try ring

theorem entry20 (e : Env) (ha : e.a ≠ 0) : Lidar.PlaneDzdx.e20 e = ndE e 2 * nR e 0 + nE e * ndR e 2 0 := by
  unfold Lidar.PlaneDzdx.e20
  rw [node108 e ha, node96 e ha, node118 e ha, node110 e ha]
  unfold_names
  try field_simp
  try ring

theorem entry21 (e : Env) (ha : e.a ≠ 0) : Lidar.PlaneDzdx.e21 e = ndE e 2 * nR e 1 + nE e * ndR e 2 1 := by
  unfold Lidar.PlaneDzdx.e21
  rw [node108 e ha, node96 e ha, node119 e ha, node112 e ha]
  unfold_names
  try field_simp
  try ring

theorem entry22 (e : Env) (ha : e.a ≠ 0) : Lidar.PlaneDzdx.e22 e = ndE e 2 * nR e 2 + nE e * ndR e 2 2 := by
  unfold Lidar.PlaneDzdx.e22
  rw [node108 e ha, node96 e ha, node120 e ha, node114 e ha]
  unfold_names
  try field_simp
  try ring

theorem entry23 (e : Env) (ha : e.a ≠ 0) : Lidar.PlaneDzdx.e23 e = -(e.nx * ndE e 2) := by
  unfold Lidar.PlaneDzdx.e23
  rw [node108 e ha]
  unfold_names
  try field_simp
  try ring

theorem entry24 (e : Env) (ha : e.a ≠ 0) : Lidar.PlaneDzdx.e24 e = -(e.ny * ndE e 2) := by
  unfold Lidar.PlaneDzdx.e24
  rw [node108 e ha]
  unfold_names
  try field_simp
  try ring

theorem entry25 (e : Env) (ha : e.a ≠ 0) : Lidar.PlaneDzdx.e25 e = -(e.nz * ndE e 2) := by
  unfold Lidar.PlaneDzdx.e25
  rw [node108 e ha]
  unfold_names
  try field_simp
  try ring

theorem entry30 (e : Env) (ha : e.a ≠ 0) : Lidar.PlaneDzdx.e30 e = e.nx * nR e 0 := by
  unfold Lidar.PlaneDzdx.e30
  rw [node121 e ha]
  unfold_names
  try field_simp
  try ring

theorem entry31 (e : Env) (ha : e.a ≠ 0) : Lidar.PlaneDzdx.e31 e = e.nx * nR e 1 := by
  unfold Lidar.PlaneDzdx.e31
  rw [node122 e ha]
  unfold_names
  try field_simp
  try ring

theorem entry32 (e : Env) (ha : e.a ≠ 0) : Lidar.PlaneDzdx.e32 e = e.nx * nR e 2 := by
  unfold Lidar.PlaneDzdx.e32
  rw [node123 e ha]
  unfold_names
  try field_simp
  try ring

theorem entry33 (e : Env) : Lidar.PlaneDzdx.e33 e = -(e.nx * e.nx) := by
  unfold Lidar.PlaneDzdx.e33
  unfold_names
  try ring

theorem entry34 (e : Env) : Lidar.PlaneDzdx.e34 e = -(e.nx * e.ny) := by
  unfold Lidar.PlaneDzdx.e34
  unfold_names
  try ring

theorem entry35 (e : Env) : Lidar.PlaneDzdx.e35 e = -(e.nx * e.nz) := by
  unfold Lidar.PlaneDzdx.e35
  unfold_names
  try ring

theorem entry40 (e : Env) (ha : e.a ≠ 0) : Lidar.PlaneDzdx.e40 e = e.ny * nR e 0 := by
  unfold Lidar.PlaneDzdx.e40
  rw [node121 e ha]
  unfold_names
  try field_simp
  try ring

theorem entry41 (e : Env) (ha : e.a ≠ 0) : Lidar.PlaneDzdx.e41 e = e.ny * nR e 1 := by
  unfold Lidar.PlaneDzdx.e41
  rw [node122 e ha]
  unfold_names
  try field_simp
  try ring

theorem entry42 (e : Env) (ha : e.a ≠ 0) : Lidar.PlaneDzdx.e42 e = e.ny * nR e 2 := by
  unfold Lidar.PlaneDzdx.e42
  rw [node123 e ha]
  unfold_names
  try field_simp
  try ring

theorem entry43 (e : Env) : Lidar.PlaneDzdx.e43 e = -(e.ny * e.nx) := by
  unfold Lidar.PlaneDzdx.e43
  unfold_names
  try ring

theorem entry44 (e : Env) : Lidar.PlaneDzdx.e44 e = -(e.ny * e.ny) := by
  unfold Lidar.PlaneDzdx.e44
  unfold_names
  try ring

theorem entry45 (e : Env) : Lidar.PlaneDzdx.e45 e = -(e.ny * e.nz) := by
  unfold Lidar.PlaneDzdx.e45
  unfold_names
  try ring

theorem entry50 (e : Env) (ha : e.a ≠ 0) : Lidar.PlaneDzdx.e50 e = e.nz * nR e 0 := by
  unfold Lidar.PlaneDzdx.e50
  rw [node121 e ha]
  unfold_names
  try field_simp
  try ring

theorem entry51 (e : Env) (ha : e.a ≠ 0) : Lidar.PlaneDzdx.e51 e = e.nz * nR e 1 := by
  unfold Lidar.PlaneDzdx.e51
  rw [node122 e ha]
  unfold_names
  try field_simp
  try ring

theorem entry52 (e : Env) (ha : e.a ≠ 0) : Lidar.PlaneDzdx.e52 e = e.nz * nR e 2 := by
  unfold Lidar.PlaneDzdx.e52
  rw [node123 e ha]
  unfold_names
  try field_simp
  try ring

theorem entry53 (e : Env) : Lidar.PlaneDzdx.e53 e = -(e.nz * e.nx) := by
  unfold Lidar.PlaneDzdx.e53
  unfold_names
  try ring

theorem entry54 (e : Env) : Lidar.PlaneDzdx.e54 e = -(e.nz * e.ny) := by
  unfold Lidar.PlaneDzdx.e54
  unfold_names
  try ring

theorem entry55 (e : Env) : Lidar.PlaneDzdx.e55 e = -(e.nz * e.nz) := by
  unfold Lidar.PlaneDzdx.e55
  unfold_names
  try ring

end PlaneDzdx

end Icp

end Serpent
