import Verif.Model.IcpPointDx2
import Verif.Lemmas.IcpNodes

/-!
# The entries of `PointToPointIcpNonlinearModel::compute_half_d2F_dx2`

Generated by a script that searched the entries for multiples of the derivatives of `IcpCanonical`.
-/

namespace Serpent

namespace Icp

open Lidar

set_option linter.unusedTactic false
set_option linter.unreachableTactic false

namespace PointDx2

open Lidar.PointDx2

theorem entry00 (e : Env) (ha : e.a ≠ 0) : Lidar.PointDx2.e00 e = (dE e 0 0 * dE e 0 0 + E e 0 * ddE e 0 0 0) + (dE e 0 1 * dE e 0 1 + E e 1 * ddE e 0 0 1) + (dE e 0 2 * dE e 0 2 + E e 2 * ddE e 0 0 2) := by
  unfold Lidar.PointDx2.e00
  rw [node0 e ha, node1 e ha, node2 e ha, node3 e ha, node4 e ha, node5 e ha, node6 e ha, node7 e ha, node8 e ha, node9 e ha, node10 e ha, node11 e ha]
  unfold_names
  try field_simp
  try ring

theorem entry01 (e : Env) (ha : e.a ≠ 0) : Lidar.PointDx2.e01 e = (dE e 0 0 * dE e 1 0 + E e 0 * ddE e 0 1 0) + (dE e 0 1 * dE e 1 1 + E e 1 * ddE e 0 1 1) + (dE e 0 2 * dE e 1 2 + E e 2 * ddE e 0 1 2) := by
  unfold Lidar.PointDx2.e01
  rw [node12 e ha, node13 e ha, node14 e ha, node3 e ha, node4 e ha, node5 e ha, node15 e ha, node16 e ha, node17 e ha, node11 e ha, node9 e ha, node10 e ha]
  unfold_names
  try field_simp
  try ring

theorem entry02 (e : Env) (ha : e.a ≠ 0) : Lidar.PointDx2.e02 e = (dE e 0 0 * dE e 2 0 + E e 0 * ddE e 0 2 0) + (dE e 0 1 * dE e 2 1 + E e 1 * ddE e 0 2 1) + (dE e 0 2 * dE e 2 2 + E e 2 * ddE e 0 2 2) := by
  unfold Lidar.PointDx2.e02
  rw [node18 e ha, node19 e ha, node20 e ha, node4 e ha, node3 e ha, node5 e ha, node21 e ha, node22 e ha, node23 e ha, node10 e ha, node9 e ha, node11 e ha]
  unfold_names
  try field_simp
  try ring

theorem entry03 (e : Env) (ha : e.a ≠ 0) : Lidar.PointDx2.e03 e = dE e 0 0 := by
  unfold Lidar.PointDx2.e03
  rw [node8 e ha]
  unfold_names
  try field_simp
  try ring

theorem entry04 (e : Env) (ha : e.a ≠ 0) : Lidar.PointDx2.e04 e = dE e 0 1 := by
  unfold Lidar.PointDx2.e04
  rw [node24 e ha]
  unfold_names
  try field_simp
  try ring

theorem entry05 (e : Env) (ha : e.a ≠ 0) : Lidar.PointDx2.e05 e = dE e 0 2 := by
  unfold Lidar.PointDx2.e05
  rw [node7 e ha]
  unfold_names
  try field_simp
  try ring

theorem entry10 (e : Env) (ha : e.a ≠ 0) : Lidar.PointDx2.e10 e = (dE e 1 0 * dE e 0 0 + E e 0 * ddE e 0 1 0) + (dE e 1 1 * dE e 0 1 + E e 1 * ddE e 0 1 1) + (dE e 1 2 * dE e 0 2 + E e 2 * ddE e 0 1 2) := by
  unfold Lidar.PointDx2.e10
  rw [node12 e ha, node13 e ha, node14 e ha, node25 e ha, node26 e ha, node27 e ha, node6 e ha, node7 e ha, node8 e ha, node11 e ha, node9 e ha, node10 e ha]
  unfold_names
  try field_simp
  try ring

theorem entry11 (e : Env) (ha : e.a ≠ 0) : Lidar.PointDx2.e11 e = (dE e 1 0 * dE e 1 0 + E e 0 * ddE e 1 1 0) + (dE e 1 1 * dE e 1 1 + E e 1 * ddE e 1 1 1) + (dE e 1 2 * dE e 1 2 + E e 2 * ddE e 1 1 2) := by
  unfold Lidar.PointDx2.e11
  rw [node28 e ha, node29 e ha, node30 e ha, node25 e ha, node26 e ha, node27 e ha, node15 e ha, node16 e ha, node17 e ha, node10 e ha, node9 e ha, node11 e ha]
  unfold_names
  try field_simp
  try ring

theorem entry12 (e : Env) (ha : e.a ≠ 0) : Lidar.PointDx2.e12 e = (dE e 1 0 * dE e 2 0 + E e 0 * ddE e 1 2 0) + (dE e 1 1 * dE e 2 1 + E e 1 * ddE e 1 2 1) + (dE e 1 2 * dE e 2 2 + E e 2 * ddE e 1 2 2) := by
  unfold Lidar.PointDx2.e12
  rw [node31 e ha, node32 e ha, node33 e ha, node26 e ha, node25 e ha, node27 e ha, node22 e ha, node21 e ha, node23 e ha, node9 e ha, node10 e ha, node11 e ha]
  unfold_names
  try field_simp
  try ring

theorem entry13 (e : Env) (ha : e.a ≠ 0) : Lidar.PointDx2.e13 e = dE e 1 0 := by
  unfold Lidar.PointDx2.e13
  rw [node15 e ha]
  unfold_names
  try field_simp
  try ring

theorem entry14 (e : Env) (ha : e.a ≠ 0) : Lidar.PointDx2.e14 e = dE e 1 1 := by
  unfold Lidar.PointDx2.e14
  rw [node17 e ha]
  unfold_names
  try field_simp
  try ring

theorem entry15 (e : Env) (ha : e.a ≠ 0) : Lidar.PointDx2.e15 e = dE e 1 2 := by
  unfold Lidar.PointDx2.e15
  rw [node34 e ha]
  unfold_names
  try field_simp
  try ring

theorem entry20 (e : Env) (ha : e.a ≠ 0) : Lidar.PointDx2.e20 e = (dE e 2 0 * dE e 0 0 + E e 0 * ddE e 0 2 0) + (dE e 2 1 * dE e 0 1 + E e 1 * ddE e 0 2 1) + (dE e 2 2 * dE e 0 2 + E e 2 * ddE e 0 2 2) := by
  unfold Lidar.PointDx2.e20
  rw [node18 e ha, node19 e ha, node20 e ha, node35 e ha, node36 e ha, node37 e ha, node7 e ha, node6 e ha, node8 e ha, node10 e ha, node9 e ha, node11 e ha]
  unfold_names
  try field_simp
  try ring

theorem entry21 (e : Env) (ha : e.a ≠ 0) : Lidar.PointDx2.e21 e = (dE e 2 0 * dE e 1 0 + E e 0 * ddE e 1 2 0) + (dE e 2 1 * dE e 1 1 + E e 1 * ddE e 1 2 1) + (dE e 2 2 * dE e 1 2 + E e 2 * ddE e 1 2 2) := by
  unfold Lidar.PointDx2.e21
  rw [node31 e ha, node32 e ha, node33 e ha, node36 e ha, node35 e ha, node37 e ha, node16 e ha, node15 e ha, node17 e ha, node9 e ha, node10 e ha, node11 e ha]
  unfold_names
  try field_simp
  try ring

theorem entry22 (e : Env) (ha : e.a ≠ 0) : Lidar.PointDx2.e22 e = (dE e 2 0 * dE e 2 0 + E e 0 * ddE e 2 2 0) + (dE e 2 1 * dE e 2 1 + E e 1 * ddE e 2 2 1) + (dE e 2 2 * dE e 2 2 + E e 2 * ddE e 2 2 2) := by
  unfold Lidar.PointDx2.e22
  rw [node38 e ha, node39 e ha, node40 e ha, node35 e ha, node36 e ha, node37 e ha, node21 e ha, node22 e ha, node23 e ha, node11 e ha, node9 e ha, node10 e ha]
  unfold_names
  try field_simp
  try ring

theorem entry23 (e : Env) (ha : e.a ≠ 0) : Lidar.PointDx2.e23 e = dE e 2 0 := by
  unfold Lidar.PointDx2.e23
  rw [node41 e ha]
  unfold_names
  try field_simp
  try ring

theorem entry24 (e : Env) (ha : e.a ≠ 0) : Lidar.PointDx2.e24 e = dE e 2 1 := by
  unfold Lidar.PointDx2.e24
  rw [node22 e ha]
  unfold_names
  try field_simp
  try ring

theorem entry25 (e : Env) (ha : e.a ≠ 0) : Lidar.PointDx2.e25 e = dE e 2 2 := by
  unfold Lidar.PointDx2.e25
  rw [node23 e ha]
  unfold_names
  try field_simp
  try ring

theorem entry30 (e : Env) (ha : e.a ≠ 0) : Lidar.PointDx2.e30 e = dE e 0 0 := by
  unfold Lidar.PointDx2.e30
  rw [node8 e ha]
  unfold_names
  try field_simp
  try ring

theorem entry31 (e : Env) (ha : e.a ≠ 0) : Lidar.PointDx2.e31 e = dE e 1 0 := by
  unfold Lidar.PointDx2.e31
  rw [node15 e ha]
  unfold_names
  try field_simp
  try ring

theorem entry32 (e : Env) (ha : e.a ≠ 0) : Lidar.PointDx2.e32 e = dE e 2 0 := by
  unfold Lidar.PointDx2.e32
  rw [node41 e ha]
  unfold_names
  try field_simp
  try ring

theorem entry33 (e : Env) : Lidar.PointDx2.e33 e = 1 := by
  unfold Lidar.PointDx2.e33
  unfold_names
  try ring

theorem entry34 (e : Env) : Lidar.PointDx2.e34 e = 0 := by
  unfold Lidar.PointDx2.e34
  unfold_names
  try ring

theorem entry35 (e : Env) : Lidar.PointDx2.e35 e = 0 := by
  unfold Lidar.PointDx2.e35
  unfold_names
  try ring

theorem entry40 (e : Env) (ha : e.a ≠ 0) : Lidar.PointDx2.e40 e = dE e 0 1 := by
  unfold Lidar.PointDx2.e40
  rw [node24 e ha]
  unfold_names
  try field_simp
  try ring

theorem entry41 (e : Env) (ha : e.a ≠ 0) : Lidar.PointDx2.e41 e = dE e 1 1 := by
  unfold Lidar.PointDx2.e41
  rw [node17 e ha]
  unfold_names
  try field_simp
  try ring

theorem entry42 (e : Env) (ha : e.a ≠ 0) : Lidar.PointDx2.e42 e = dE e 2 1 := by
  unfold Lidar.PointDx2.e42
  rw [node22 e ha]
  unfold_names
  try field_simp
  try ring

theorem entry43 (e : Env) : Lidar.PointDx2.e43 e = 0 := by
  unfold Lidar.PointDx2.e43
  unfold_names
  try ring

theorem entry44 (e : Env) : Lidar.PointDx2.e44 e = 1 := by
  unfold Lidar.PointDx2.e44
  unfold_names
  try ring

theorem entry45 (e : Env) : Lidar.PointDx2.e45 e = 0 := by
  unfold Lidar.PointDx2.e45
  unfold_names
  try ring

theorem entry50 (e : Env) (ha : e.a ≠ 0) : Lidar.PointDx2.e50 e = dE e 0 2 := by
  unfold Lidar.PointDx2.e50
  rw [node7 e ha]
  unfold_names
  try field_simp
  try ring

theorem entry51 (e : Env) (ha : e.a ≠ 0) : Lidar.PointDx2.e51 e = dE e 1 2 := by
  unfold Lidar.PointDx2.e51
  rw [node34 e ha]
  unfold_names
  try field_simp
  try ring

theorem entry52 (e : Env) (ha : e.a ≠ 0) : Lidar.PointDx2.e52 e = dE e 2 2 := by
  unfold Lidar.PointDx2.e52
  rw [node23 e ha]
  unfold_names
  try field_simp
  try ring

theorem entry53 (e : Env) : Lidar.PointDx2.e53 e = 0 := by
  unfold Lidar.PointDx2.e53
  unfold_names
  try ring

theorem entry54 (e : Env) : Lidar.PointDx2.e54 e = 0 := by
  unfold Lidar.PointDx2.e54
  unfold_names
  try ring

theorem entry55 (e : Env) : Lidar.PointDx2.e55 e = 1 := by
  unfold Lidar.PointDx2.e55
  unfold_names
  try ring

end PointDx2

end Icp

end Serpent
