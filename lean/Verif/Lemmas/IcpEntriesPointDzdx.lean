import Verif.Model.IcpPointDzdx
import Verif.Lemmas.IcpNodes

/-!
# The entries of `PointToPointIcpNonlinearModel::compute_half_d2F_dzdx`

Generated by a script that searched the entries for multiples of the derivatives of `IcpCanonical`.
-/

namespace Serpent

namespace Icp

open Lidar

set_option linter.unusedTactic false
set_option linter.unreachableTactic false

namespace PointDzdx

open Lidar.PointDzdx

theorem entry00 (e : Env) (ha : e.a ≠ 0) : Lidar.PointDzdx.e00 e = (dE e 0 0 * R e 0 0 + E e 0 * dR e 0 0 0) + (dE e 0 1 * R e 1 0 + E e 1 * dR e 0 1 0) + (dE e 0 2 * R e 2 0 + E e 2 * dR e 0 2 0) := by
  unfold Lidar.PointDzdx.e00
  rw [node4 e ha, node3 e ha, node5 e ha, node10 e ha, node11 e ha, node9 e ha, node42 e ha, node43 e ha, node44 e ha, node45 e ha, node46 e ha, node47 e ha]
  unfold_names
  try field_simp
  try ring

theorem entry01 (e : Env) (ha : e.a ≠ 0) : Lidar.PointDzdx.e01 e = (dE e 0 0 * R e 0 1 + E e 0 * dR e 0 0 1) + (dE e 0 1 * R e 1 1 + E e 1 * dR e 0 1 1) + (dE e 0 2 * R e 2 1 + E e 2 * dR e 0 2 1) := by
  unfold Lidar.PointDzdx.e01
  rw [node4 e ha, node3 e ha, node5 e ha, node9 e ha, node11 e ha, node10 e ha, node48 e ha, node49 e ha, node50 e ha, node51 e ha, node52 e ha, node53 e ha]
  unfold_names
  try field_simp
  try ring

theorem entry02 (e : Env) (ha : e.a ≠ 0) : Lidar.PointDzdx.e02 e = (dE e 0 0 * R e 0 2 + E e 0 * dR e 0 0 2) + (dE e 0 1 * R e 1 2 + E e 1 * dR e 0 1 2) + (dE e 0 2 * R e 2 2 + E e 2 * dR e 0 2 2) := by
  unfold Lidar.PointDzdx.e02
  rw [node3 e ha, node4 e ha, node5 e ha, node9 e ha, node10 e ha, node11 e ha, node54 e ha, node55 e ha, node56 e ha, node57 e ha, node58 e ha, node59 e ha]
  unfold_names
  try field_simp
  try ring

theorem entry03 (e : Env) (ha : e.a ≠ 0) : Lidar.PointDzdx.e03 e = -dE e 0 0 := by
  unfold Lidar.PointDzdx.e03
  rw [node60 e ha]
  unfold_names
  try field_simp
  try ring

theorem entry04 (e : Env) (ha : e.a ≠ 0) : Lidar.PointDzdx.e04 e = -dE e 0 1 := by
  unfold Lidar.PointDzdx.e04
  rw [node6 e ha]
  unfold_names
  try field_simp
  try ring

theorem entry05 (e : Env) (ha : e.a ≠ 0) : Lidar.PointDzdx.e05 e = -dE e 0 2 := by
  unfold Lidar.PointDzdx.e05
  rw [node61 e ha]
  unfold_names
  try field_simp
  try ring

theorem entry10 (e : Env) (ha : e.a ≠ 0) : Lidar.PointDzdx.e10 e = (dE e 1 0 * R e 0 0 + E e 0 * dR e 1 0 0) + (dE e 1 1 * R e 1 0 + E e 1 * dR e 1 1 0) + (dE e 1 2 * R e 2 0 + E e 2 * dR e 1 2 0) := by
  unfold Lidar.PointDzdx.e10
  rw [node26 e ha, node25 e ha, node27 e ha, node10 e ha, node11 e ha, node9 e ha, node62 e ha, node63 e ha, node64 e ha, node46 e ha, node45 e ha, node47 e ha]
  unfold_names
  try field_simp
  try ring

theorem entry11 (e : Env) (ha : e.a ≠ 0) : Lidar.PointDzdx.e11 e = (dE e 1 0 * R e 0 1 + E e 0 * dR e 1 0 1) + (dE e 1 1 * R e 1 1 + E e 1 * dR e 1 1 1) + (dE e 1 2 * R e 2 1 + E e 2 * dR e 1 2 1) := by
  unfold Lidar.PointDzdx.e11
  rw [node26 e ha, node25 e ha, node27 e ha, node9 e ha, node11 e ha, node10 e ha, node65 e ha, node66 e ha, node67 e ha, node51 e ha, node52 e ha, node53 e ha]
  unfold_names
  try field_simp
  try ring

theorem entry12 (e : Env) (ha : e.a ≠ 0) : Lidar.PointDzdx.e12 e = (dE e 1 0 * R e 0 2 + E e 0 * dR e 1 0 2) + (dE e 1 1 * R e 1 2 + E e 1 * dR e 1 1 2) + (dE e 1 2 * R e 2 2 + E e 2 * dR e 1 2 2) := by
  unfold Lidar.PointDzdx.e12
  rw [node25 e ha, node26 e ha, node27 e ha, node10 e ha, node9 e ha, node11 e ha, node68 e ha, node69 e ha, node70 e ha, node57 e ha, node58 e ha, node59 e ha]
  unfold_names
  try field_simp
  try ring

theorem entry13 (e : Env) (ha : e.a ≠ 0) : Lidar.PointDzdx.e13 e = -dE e 1 0 := by
  unfold Lidar.PointDzdx.e13
  rw [node71 e ha]
  unfold_names
  try field_simp
  try ring

theorem entry14 (e : Env) (ha : e.a ≠ 0) : Lidar.PointDzdx.e14 e = -dE e 1 1 := by
  unfold Lidar.PointDzdx.e14
  rw [node72 e ha]
  unfold_names
  try field_simp
  try ring

theorem entry15 (e : Env) (ha : e.a ≠ 0) : Lidar.PointDzdx.e15 e = -dE e 1 2 := by
  unfold Lidar.PointDzdx.e15
  rw [node16 e ha]
  unfold_names
  try field_simp
  try ring

theorem entry20 (e : Env) (ha : e.a ≠ 0) : Lidar.PointDzdx.e20 e = (dE e 2 0 * R e 0 0 + E e 0 * dR e 2 0 0) + (dE e 2 1 * R e 1 0 + E e 1 * dR e 2 1 0) + (dE e 2 2 * R e 2 0 + E e 2 * dR e 2 2 0) := by
  unfold Lidar.PointDzdx.e20
  rw [node36 e ha, node35 e ha, node37 e ha, node11 e ha, node10 e ha, node9 e ha, node73 e ha, node74 e ha, node75 e ha, node46 e ha, node45 e ha, node47 e ha]
  unfold_names
  try field_simp
  try ring

theorem entry21 (e : Env) (ha : e.a ≠ 0) : Lidar.PointDzdx.e21 e = (dE e 2 0 * R e 0 1 + E e 0 * dR e 2 0 1) + (dE e 2 1 * R e 1 1 + E e 1 * dR e 2 1 1) + (dE e 2 2 * R e 2 1 + E e 2 * dR e 2 2 1) := by
  unfold Lidar.PointDzdx.e21
  rw [node35 e ha, node36 e ha, node37 e ha, node11 e ha, node9 e ha, node10 e ha, node76 e ha, node77 e ha, node78 e ha, node51 e ha, node52 e ha, node53 e ha]
  unfold_names
  try field_simp
  try ring

theorem entry22 (e : Env) (ha : e.a ≠ 0) : Lidar.PointDzdx.e22 e = (dE e 2 0 * R e 0 2 + E e 0 * dR e 2 0 2) + (dE e 2 1 * R e 1 2 + E e 1 * dR e 2 1 2) + (dE e 2 2 * R e 2 2 + E e 2 * dR e 2 2 2) := by
  unfold Lidar.PointDzdx.e22
  rw [node36 e ha, node35 e ha, node37 e ha, node9 e ha, node10 e ha, node11 e ha, node79 e ha, node80 e ha, node81 e ha, node58 e ha, node57 e ha, node59 e ha]
  unfold_names
  try field_simp
  try ring

theorem entry23 (e : Env) (ha : e.a ≠ 0) : Lidar.PointDzdx.e23 e = -dE e 2 0 := by
  unfold Lidar.PointDzdx.e23
  rw [node21 e ha]
  unfold_names
  try field_simp
  try ring

theorem entry24 (e : Env) (ha : e.a ≠ 0) : Lidar.PointDzdx.e24 e = -dE e 2 1 := by
  unfold Lidar.PointDzdx.e24
  rw [node82 e ha]
  unfold_names
  try field_simp
  try ring

theorem entry25 (e : Env) (ha : e.a ≠ 0) : Lidar.PointDzdx.e25 e = -dE e 2 2 := by
  unfold Lidar.PointDzdx.e25
  rw [node83 e ha]
  unfold_names
  try field_simp
  try ring

theorem entry30 (e : Env) (ha : e.a ≠ 0) : Lidar.PointDzdx.e30 e = R e 0 0 := by
  unfold Lidar.PointDzdx.e30
  rw [node84 e ha]
  unfold_names
  try field_simp
  try ring

theorem entry31 (e : Env) (ha : e.a ≠ 0) : Lidar.PointDzdx.e31 e = R e 0 1 := by
  unfold Lidar.PointDzdx.e31
  rw [node85 e ha]
  unfold_names
  try field_simp
  try ring

theorem entry32 (e : Env) (ha : e.a ≠ 0) : Lidar.PointDzdx.e32 e = R e 0 2 := by
  unfold Lidar.PointDzdx.e32
  rw [node86 e ha]
  unfold_names
  try field_simp
  try ring

theorem entry33 (e : Env) : Lidar.PointDzdx.e33 e = -1 := by
  unfold Lidar.PointDzdx.e33
  unfold_names
  try ring

theorem entry34 (e : Env) : Lidar.PointDzdx.e34 e = -0 := by
  unfold Lidar.PointDzdx.e34
  unfold_names
  try ring

theorem entry35 (e : Env) : Lidar.PointDzdx.e35 e = -0 := by
  unfold Lidar.PointDzdx.e35
  unfold_names
  try ring

theorem entry40 (e : Env) (ha : e.a ≠ 0) : Lidar.PointDzdx.e40 e = R e 1 0 := by
  unfold Lidar.PointDzdx.e40
  rw [node87 e ha]
  unfold_names
  try field_simp
  try ring

theorem entry41 (e : Env) (ha : e.a ≠ 0) : Lidar.PointDzdx.e41 e = R e 1 1 := by
  unfold Lidar.PointDzdx.e41
  rw [node88 e ha]
  unfold_names
  try field_simp
  try ring

theorem entry42 (e : Env) (ha : e.a ≠ 0) : Lidar.PointDzdx.e42 e = R e 1 2 := by
  unfold Lidar.PointDzdx.e42
  rw [node89 e ha]
  unfold_names
  try field_simp
  try ring

theorem entry43 (e : Env) : Lidar.PointDzdx.e43 e = -0 := by
  unfold Lidar.PointDzdx.e43
  unfold_names
  try ring

theorem entry44 (e : Env) : Lidar.PointDzdx.e44 e = -1 := by
  unfold Lidar.PointDzdx.e44
  unfold_names
  try ring

theorem entry45 (e : Env) : Lidar.PointDzdx.e45 e = -0 := by
  unfold Lidar.PointDzdx.e45
  unfold_names
  try ring

theorem entry50 (e : Env) (ha : e.a ≠ 0) : Lidar.PointDzdx.e50 e = R e 2 0 := by
  unfold Lidar.PointDzdx.e50
  rw [node90 e ha]
  unfold_names
  try field_simp
  try ring

theorem entry51 (e : Env) (ha : e.a ≠ 0) : Lidar.PointDzdx.e51 e = R e 2 1 := by
  unfold Lidar.PointDzdx.e51
  rw [node91 e ha]
  unfold_names
  try field_simp
  try ring

theorem entry52 (e : Env) (ha : e.a ≠ 0) : Lidar.PointDzdx.e52 e = R e 2 2 := by
  unfold Lidar.PointDzdx.e52
  rw [node92 e ha]
  unfold_names
  try field_simp
  try ring

theorem entry53 (e : Env) : Lidar.PointDzdx.e53 e = -0 := by
  unfold Lidar.PointDzdx.e53
  unfold_names
  try ring

theorem entry54 (e : Env) : Lidar.PointDzdx.e54 e = -0 := by
  unfold Lidar.PointDzdx.e54
  unfold_names
  try ring

theorem entry55 (e : Env) : Lidar.PointDzdx.e55 e = -1 := by
  unfold Lidar.PointDzdx.e55
  unfold_names
  try ring

end PointDzdx

end Icp

end Serpent
