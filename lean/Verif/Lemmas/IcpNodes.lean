import Verif.Lemmas.IcpCanonical

/-!
# Parts of the entries

Generated by a script that searched the entries for multiples of the derivatives of `IcpCanonical`.
-/

namespace Serpent

namespace Icp

open Lidar

set_option linter.unusedTactic false
set_option linter.unreachableTactic false

/-- Unfolds the named products. -/
macro "unfold_names" : tactic => `(tactic| try simp only [Env.rx2ryrz, Env.rxry2rz, Env.rxryrz2, Env.rx2ry2, Env.rx2rz2, Env.ry2rz2, Env.rx3ry, Env.rx3rz, Env.rxry3, Env.ry3rz,
  Env.rxrz3, Env.ryrz3, Env.rx2ry, Env.rx2rz, Env.rxry2, Env.ry2rz, Env.rxrz2, Env.ryrz2, Env.rxryrz, Env.rx3, Env.ry3, Env.rz3,
  Env.rx2, Env.ry2, Env.rz2, Env.rxry, Env.rxrz, Env.ryrz, Env.a2, Env.a3, Env.a4, Env.a5, Env.a6, Env.cam1, Env.rx4, Env.ry4,
  Env.rz4, Env.nx2, Env.ny2, Env.nz2, Env.nxny, Env.nynz, Env.nxnz])

/-- Unfolds the derivatives. -/
macro "expand_derivatives" : tactic => `(tactic| simp only [nE, ndE, nddE, nR, ndR, E, dE, ddE, R, dR, rotE, dRotE, ddRotE,
  Fin.sum_univ_three, dl_same, dl01, dl02, dl10, dl12, dl20, dl21, sk00, sk01, sk02, sk10, sk11, sk12, sk20, sk21, sk22, rv0, rv1,
  rv2, tv0, tv1, tv2, pv0, pv1, pv2, qv0, qv1, qv2, nv0, nv1, nv2, bs, cf, coefs, mul_zero, zero_mul, add_zero, zero_add, mul_one,
  one_mul, neg_zero, mul_neg])

theorem node0 (e : Env) (ha : e.a ≠ 0) :
    2 * e.pz * (3 * e.a3 * e.rx * e.sa - 3 * e.a * e.rx3 * e.sa - 2 * e.a2 * e.ryrz + 8 * e.rx2ryrz + 3 * e.a2 * e.ca * e.rx3 +
    e.a3 * e.rx3 * e.sa - 3 * e.a4 * e.ca * e.rx + 2 * e.a2 * e.ca * e.ryrz + e.a3 * e.ryrz * e.sa - 8 * e.ca * e.rx2ryrz + e.a2 *
    e.ca * e.rx2ryrz - 5 * e.a * e.rx2ryrz * e.sa) / e.a6 + 2 * e.py * (8 * e.rx2ry2 - e.a5 * e.sa - 2 * e.a2 * e.ry2 - e.a4 *
    e.ca * e.rx2 + 2 * e.a2 * e.ca * e.ry2 + e.a3 * e.rx2 * e.sa + e.a3 * e.ry2 * e.sa - 8 * e.ca * e.rx2ry2 + e.a2 * e.ca *
    e.rx2ry2 - 5 * e.a * e.rx2ry2 * e.sa) / e.a6 + 2 * e.px * (8 * e.rx3ry - 6 * e.a2 * e.rxry - e.a3 * e.rz * e.sa - 8 * e.ca *
    e.rx3ry + e.a4 * e.ca * e.rz + 6 * e.a2 * e.ca * e.rxry - 5 * e.a * e.rx3ry * e.sa + 3 * e.a3 * e.rxry * e.sa + 3 * e.a *
    e.rx2rz * e.sa + e.a2 * e.ca * e.rx3ry - 3 * e.a2 * e.ca * e.rx2rz - e.a3 * e.rx2rz * e.sa) / e.a6 =
      2 * ddE e 0 0 1 := by
  unfold_names
  expand_derivatives
  field_simp
  ring

theorem node1 (e : Env) (ha : e.a ≠ 0) :
    2 * e.pz * (8 * e.rx2rz2 - e.a5 * e.sa - 2 * e.a2 * e.rz2 - e.a4 * e.ca * e.rx2 + 2 * e.a2 * e.ca * e.rz2 + e.a3 * e.rx2 *
    e.sa + e.a3 * e.rz2 * e.sa - 8 * e.ca * e.rx2rz2 + e.a2 * e.ca * e.rx2rz2 - 5 * e.a * e.rx2rz2 * e.sa) / e.a6 - 2 * e.py * (2
    * e.a2 * e.ryrz - 3 * e.a * e.rx3 * e.sa + 3 * e.a3 * e.rx * e.sa - 8 * e.rx2ryrz + 3 * e.a2 * e.ca * e.rx3 + e.a3 * e.rx3 *
    e.sa - 3 * e.a4 * e.ca * e.rx - 2 * e.a2 * e.ca * e.ryrz - e.a3 * e.ryrz * e.sa + 8 * e.ca * e.rx2ryrz - e.a2 * e.ca *
    e.rx2ryrz + 5 * e.a * e.rx2ryrz * e.sa) / e.a6 + 2 * e.px * (8 * e.rx3rz - 6 * e.a2 * e.rxrz + e.a3 * e.ry * e.sa - 8 * e.ca *
    e.rx3rz - e.a4 * e.ca * e.ry + 6 * e.a2 * e.ca * e.rxrz - 3 * e.a * e.rx2ry * e.sa - 5 * e.a * e.rx3rz * e.sa + 3 * e.a3 *
    e.rxrz * e.sa + 3 * e.a2 * e.ca * e.rx2ry + e.a2 * e.ca * e.rx3rz + e.a3 * e.rx2ry * e.sa) / e.a6 =
      2 * ddE e 0 0 2 := by
  unfold_names
  expand_derivatives
  field_simp
  ring

theorem node2 (e : Env) (ha : e.a ≠ 0) :
    2 * e.py * (8 * e.rx3ry - 6 * e.a2 * e.rxry + e.a3 * e.rz * e.sa - 8 * e.ca * e.rx3ry - e.a4 * e.ca * e.rz + 6 * e.a2 * e.ca *
    e.rxry - 5 * e.a * e.rx3ry * e.sa + 3 * e.a3 * e.rxry * e.sa - 3 * e.a * e.rx2rz * e.sa + e.a2 * e.ca * e.rx3ry + 3 * e.a2 *
    e.ca * e.rx2rz + e.a3 * e.rx2rz * e.sa) / e.a6 + 2 * e.pz * (8 * e.rx3rz - 6 * e.a2 * e.rxrz - e.a3 * e.ry * e.sa - 8 * e.ca *
    e.rx3rz + e.a4 * e.ca * e.ry + 6 * e.a2 * e.ca * e.rxrz + 3 * e.a * e.rx2ry * e.sa - 5 * e.a * e.rx3rz * e.sa + 3 * e.a3 *
    e.rxrz * e.sa - 3 * e.a2 * e.ca * e.rx2ry + e.a2 * e.ca * e.rx3rz - e.a3 * e.rx2ry * e.sa) / e.a6 - 2 * e.px * (e.a2 - e.rx2)
    * (2 * e.a2 * e.ca + e.a3 * e.sa - 8 * e.ca * e.rx2 - 2 * e.a2 + 8 * e.rx2 - 5 * e.a * e.rx2 * e.sa + e.a2 * e.ca * e.rx2) /
    e.a6 =
      2 * ddE e 0 0 0 := by
  unfold_names
  expand_derivatives
  field_simp
  ring

theorem node3 (e : Env) (ha : e.a ≠ 0) :
    2 * e.pz * (e.a3 * e.sa - e.a * e.rx2 * e.sa + e.a2 * e.ca * e.rx2 + 2 * e.rxryrz - 2 * e.ca * e.rxryrz - e.a * e.rxryrz *
    e.sa) / e.a4 - 2 * e.px * (e.a2 * e.ry - 2 * e.rx2ry + 2 * e.ca * e.rx2ry - e.a2 * e.ca * e.ry - e.a * e.rxrz * e.sa + e.a2 *
    e.ca * e.rxrz + e.a * e.rx2ry * e.sa) / e.a4 + 2 * e.py * e.rx * (e.a3 * e.sa - 2 * e.ca * e.ry2 + 2 * e.ry2 - e.a * e.ry2 *
    e.sa) / e.a4 =
      (-2) * dE e 0 1 := by
  unfold_names
  expand_derivatives
  field_simp
  ring

theorem node4 (e : Env) (ha : e.a ≠ 0) :
    2 * e.px * (e.a2 * e.rz - 2 * e.rx2rz + 2 * e.ca * e.rx2rz - e.a2 * e.ca * e.rz + e.a * e.rxry * e.sa - e.a2 * e.ca * e.rxry +
    e.a * e.rx2rz * e.sa) / e.a4 + 2 * e.py * (e.a3 * e.sa - e.a * e.rx2 * e.sa + e.a2 * e.ca * e.rx2 - 2 * e.rxryrz + 2 * e.ca *
    e.rxryrz + e.a * e.rxryrz * e.sa) / e.a4 - 2 * e.pz * e.rx * (e.a3 * e.sa - 2 * e.ca * e.rz2 + 2 * e.rz2 - e.a * e.rz2 * e.sa)
    / e.a4 =
      2 * dE e 0 2 := by
  unfold_names
  expand_derivatives
  field_simp
  ring

theorem node5 (e : Env) (ha : e.a ≠ 0) :
    2 * e.py * (e.a2 * e.ry - 2 * e.rx2ry + 2 * e.ca * e.rx2ry - e.a2 * e.ca * e.ry + e.a * e.rxrz * e.sa - e.a2 * e.ca * e.rxrz +
    e.a * e.rx2ry * e.sa) / e.a4 + 2 * e.pz * (e.a2 * e.rz - 2 * e.rx2rz + 2 * e.ca * e.rx2rz - e.a2 * e.ca * e.rz - e.a * e.rxry
    * e.sa + e.a2 * e.ca * e.rxry + e.a * e.rx2rz * e.sa) / e.a4 - 2 * e.px * e.rx * (e.a2 - e.rx2) * (2 * e.ca + e.a * e.sa - 2)
    / e.a4 =
      2 * dE e 0 0 := by
  unfold_names
  expand_derivatives
  field_simp
  ring

theorem node6 (e : Env) (ha : e.a ≠ 0) :
    e.pz * (e.a3 * e.sa - e.a * e.rx2 * e.sa + e.a2 * e.ca * e.rx2 + 2 * e.rxryrz - 2 * e.ca * e.rxryrz - e.a * e.rxryrz * e.sa) /
    e.a4 - e.px * (e.a2 * e.ry - 2 * e.rx2ry + 2 * e.ca * e.rx2ry - e.a2 * e.ca * e.ry - e.a * e.rxrz * e.sa + e.a2 * e.ca *
    e.rxrz + e.a * e.rx2ry * e.sa) / e.a4 + e.py * e.rx * (e.a3 * e.sa - 2 * e.ca * e.ry2 + 2 * e.ry2 - e.a * e.ry2 * e.sa) / e.a4 =
      -(dE e 0 1) := by
  unfold_names
  expand_derivatives
  field_simp
  ring

theorem node7 (e : Env) (ha : e.a ≠ 0) :
    e.px * (e.a2 * e.rz - 2 * e.rx2rz + 2 * e.ca * e.rx2rz - e.a2 * e.ca * e.rz + e.a * e.rxry * e.sa - e.a2 * e.ca * e.rxry + e.a
    * e.rx2rz * e.sa) / e.a4 + e.py * (e.a3 * e.sa - e.a * e.rx2 * e.sa + e.a2 * e.ca * e.rx2 - 2 * e.rxryrz + 2 * e.ca * e.rxryrz
    + e.a * e.rxryrz * e.sa) / e.a4 - e.pz * e.rx * (e.a3 * e.sa - 2 * e.ca * e.rz2 + 2 * e.rz2 - e.a * e.rz2 * e.sa) / e.a4 =
      dE e 0 2 := by
  unfold_names
  expand_derivatives
  field_simp
  ring

theorem node8 (e : Env) (ha : e.a ≠ 0) :
    e.py * (e.a2 * e.ry - 2 * e.rx2ry + 2 * e.ca * e.rx2ry - e.a2 * e.ca * e.ry + e.a * e.rxrz * e.sa - e.a2 * e.ca * e.rxrz + e.a
    * e.rx2ry * e.sa) / e.a4 + e.pz * (e.a2 * e.rz - 2 * e.rx2rz + 2 * e.ca * e.rx2rz - e.a2 * e.ca * e.rz - e.a * e.rxry * e.sa +
    e.a2 * e.ca * e.rxry + e.a * e.rx2rz * e.sa) / e.a4 - e.px * e.rx * (e.a2 - e.rx2) * (2 * e.ca + e.a * e.sa - 2) / e.a4 =
      dE e 0 0 := by
  unfold_names
  expand_derivatives
  field_simp
  ring

theorem node9 (e : Env) (ha : e.a ≠ 0) :
    e.a2 * e.tx - e.a2 * e.qx + e.px * e.rx2 - e.ca * e.px * e.rx2 + e.py * e.rxry + e.pz * e.rxrz + e.a2 * e.ca * e.px - e.a *
    e.py * e.rz * e.sa + e.a * e.pz * e.ry * e.sa - e.ca * e.py * e.rxry - e.ca * e.pz * e.rxrz =
      e.a ^ 2 * E e 0 := by
  unfold_names
  expand_derivatives
  field_simp
  ring

theorem node10 (e : Env) (ha : e.a ≠ 0) :
    e.a2 * e.ty - e.a2 * e.qy + e.py * e.ry2 - e.ca * e.py * e.ry2 + e.px * e.rxry + e.pz * e.ryrz + e.a2 * e.ca * e.py + e.a *
    e.px * e.rz * e.sa - e.a * e.pz * e.rx * e.sa - e.ca * e.px * e.rxry - e.ca * e.pz * e.ryrz =
      e.a ^ 2 * E e 1 := by
  unfold_names
  expand_derivatives
  field_simp
  ring

theorem node11 (e : Env) (ha : e.a ≠ 0) :
    e.a2 * e.tz - e.a2 * e.qz + e.pz * e.rz2 - e.ca * e.pz * e.rz2 + e.px * e.rxrz + e.py * e.ryrz + e.a2 * e.ca * e.pz - e.a *
    e.px * e.ry * e.sa + e.a * e.py * e.rx * e.sa - e.ca * e.px * e.rxrz - e.ca * e.py * e.ryrz =
      e.a ^ 2 * E e 2 := by
  unfold_names
  expand_derivatives
  field_simp
  ring

theorem node12 (e : Env) (ha : e.a ≠ 0) :
    2 * e.py * (8 * e.rx2ry2 - e.a4 * e.ca + e.a4 - 2 * e.a2 * e.rx2 - 2 * e.a2 * e.ry2 + 2 * e.a2 * e.ca * e.rx2 + 2 * e.a2 *
    e.ca * e.ry2 + e.a3 * e.rx2 * e.sa + e.a3 * e.ry2 * e.sa - 8 * e.ca * e.rx2ry2 + e.a2 * e.ca * e.rx2ry2 - 5 * e.a * e.rx2ry2 *
    e.sa - 3 * e.a * e.rxryrz * e.sa + 3 * e.a2 * e.ca * e.rxryrz + e.a3 * e.rxryrz * e.sa) / e.a6 - 2 * e.pz * (2 * e.a2 * e.ryrz
    + e.a3 * e.rx * e.sa - 8 * e.rx2ryrz - e.a4 * e.ca * e.rx - 2 * e.a2 * e.ca * e.ryrz - 3 * e.a * e.rxry2 * e.sa - e.a3 *
    e.ryrz * e.sa + 8 * e.ca * e.rx2ryrz + 3 * e.a2 * e.ca * e.rxry2 + e.a3 * e.rxry2 * e.sa - e.a2 * e.ca * e.rx2ryrz + 5 * e.a *
    e.rx2ryrz * e.sa) / e.a6 + 2 * e.px * e.rxry * (4 * e.a2 * e.ca - e.a4 * e.ca + 3 * e.a3 * e.sa - 8 * e.ca * e.rx2 - 4 * e.a2
    + 8 * e.rx2 - 5 * e.a * e.rx2 * e.sa + e.a2 * e.ca * e.rx2) / e.a6 =
      2 * ddE e 0 1 0 := by
  unfold_names
  expand_derivatives
  field_simp
  ring

theorem node13 (e : Env) (ha : e.a ≠ 0) :
    2 * e.px * (8 * e.rx2ry2 - e.a4 * e.ca + e.a4 - 2 * e.a2 * e.rx2 - 2 * e.a2 * e.ry2 + 2 * e.a2 * e.ca * e.rx2 + 2 * e.a2 *
    e.ca * e.ry2 + e.a3 * e.rx2 * e.sa + e.a3 * e.ry2 * e.sa - 8 * e.ca * e.rx2ry2 + e.a2 * e.ca * e.rx2ry2 - 5 * e.a * e.rx2ry2 *
    e.sa + 3 * e.a * e.rxryrz * e.sa - 3 * e.a2 * e.ca * e.rxryrz - e.a3 * e.rxryrz * e.sa) / e.a6 + 2 * e.pz * (e.a3 * e.ry *
    e.sa - 2 * e.a2 * e.rxrz + 8 * e.rxry2rz - e.a4 * e.ca * e.ry + 2 * e.a2 * e.ca * e.rxrz - 3 * e.a * e.rx2ry * e.sa + e.a3 *
    e.rxrz * e.sa - 8 * e.ca * e.rxry2rz + 3 * e.a2 * e.ca * e.rx2ry + e.a3 * e.rx2ry * e.sa + e.a2 * e.ca * e.rxry2rz - 5 * e.a *
    e.rxry2rz * e.sa) / e.a6 + 2 * e.py * e.rxry * (4 * e.a2 * e.ca - e.a4 * e.ca + 3 * e.a3 * e.sa - 8 * e.ca * e.ry2 - 4 * e.a2
    + 8 * e.ry2 - 5 * e.a * e.ry2 * e.sa + e.a2 * e.ca * e.ry2) / e.a6 =
      2 * ddE e 0 1 1 := by
  unfold_names
  expand_derivatives
  field_simp
  ring

theorem node14 (e : Env) (ha : e.a ≠ 0) :
    2 * e.py * (2 * e.a2 * e.rxrz + e.a3 * e.ry * e.sa - 8 * e.rxry2rz - e.a4 * e.ca * e.ry - 2 * e.a2 * e.ca * e.rxrz - 3 * e.a *
    e.rx2ry * e.sa - e.a3 * e.rxrz * e.sa + 8 * e.ca * e.rxry2rz + 3 * e.a2 * e.ca * e.rx2ry + e.a3 * e.rx2ry * e.sa - e.a2 * e.ca
    * e.rxry2rz + 5 * e.a * e.rxry2rz * e.sa) / e.a6 - 2 * e.px * (e.a3 * e.rx * e.sa - 2 * e.a2 * e.ryrz + 8 * e.rx2ryrz - e.a4 *
    e.ca * e.rx + 2 * e.a2 * e.ca * e.ryrz - 3 * e.a * e.rxry2 * e.sa + e.a3 * e.ryrz * e.sa - 8 * e.ca * e.rx2ryrz + 3 * e.a2 *
    e.ca * e.rxry2 + e.a3 * e.rxry2 * e.sa + e.a2 * e.ca * e.rx2ryrz - 5 * e.a * e.rx2ryrz * e.sa) / e.a6 + 2 * e.pz * e.rxry *
    (e.a4 * e.ca - e.a3 * e.sa + 8 * e.ca * e.rz2 - 8 * e.rz2 + 5 * e.a * e.rz2 * e.sa - e.a2 * e.ca * e.rz2) / e.a6 =
      (-2) * ddE e 0 1 2 := by
  unfold_names
  expand_derivatives
  field_simp
  ring

theorem node15 (e : Env) (ha : e.a ≠ 0) :
    e.py * (e.a2 * e.rx - 2 * e.rxry2 + 2 * e.ca * e.rxry2 - e.a2 * e.ca * e.rx + e.a * e.ryrz * e.sa - e.a2 * e.ca * e.ryrz + e.a
    * e.rxry2 * e.sa) / e.a4 + e.pz * (e.a3 * e.sa - e.a * e.ry2 * e.sa + e.a2 * e.ca * e.ry2 - 2 * e.rxryrz + 2 * e.ca * e.rxryrz
    + e.a * e.rxryrz * e.sa) / e.a4 - e.px * e.ry * (e.a3 * e.sa - 2 * e.ca * e.rx2 + 2 * e.rx2 - e.a * e.rx2 * e.sa) / e.a4 =
      dE e 1 0 := by
  unfold_names
  expand_derivatives
  field_simp
  ring

theorem node16 (e : Env) (ha : e.a ≠ 0) :
    e.px * (e.a3 * e.sa - e.a * e.ry2 * e.sa + e.a2 * e.ca * e.ry2 + 2 * e.rxryrz - 2 * e.ca * e.rxryrz - e.a * e.rxryrz * e.sa) /
    e.a4 - e.py * (e.a2 * e.rz - 2 * e.ry2rz + 2 * e.ca * e.ry2rz - e.a2 * e.ca * e.rz - e.a * e.rxry * e.sa + e.a2 * e.ca *
    e.rxry + e.a * e.ry2rz * e.sa) / e.a4 + e.pz * e.ry * (e.a3 * e.sa - 2 * e.ca * e.rz2 + 2 * e.rz2 - e.a * e.rz2 * e.sa) / e.a4 =
      -(dE e 1 2) := by
  unfold_names
  expand_derivatives
  field_simp
  ring

theorem node17 (e : Env) (ha : e.a ≠ 0) :
    e.px * (e.a2 * e.rx - 2 * e.rxry2 + 2 * e.ca * e.rxry2 - e.a2 * e.ca * e.rx - e.a * e.ryrz * e.sa + e.a2 * e.ca * e.ryrz + e.a
    * e.rxry2 * e.sa) / e.a4 + e.pz * (e.a2 * e.rz - 2 * e.ry2rz + 2 * e.ca * e.ry2rz - e.a2 * e.ca * e.rz + e.a * e.rxry * e.sa -
    e.a2 * e.ca * e.rxry + e.a * e.ry2rz * e.sa) / e.a4 - e.py * e.ry * (e.a2 - e.ry2) * (2 * e.ca + e.a * e.sa - 2) / e.a4 =
      dE e 1 1 := by
  unfold_names
  expand_derivatives
  field_simp
  ring

theorem node18 (e : Env) (ha : e.a ≠ 0) :
    2 * e.pz * (8 * e.rx2rz2 - e.a4 * e.ca + e.a4 - 2 * e.a2 * e.rx2 - 2 * e.a2 * e.rz2 + 2 * e.a2 * e.ca * e.rx2 + 2 * e.a2 *
    e.ca * e.rz2 + e.a3 * e.rx2 * e.sa + e.a3 * e.rz2 * e.sa - 8 * e.ca * e.rx2rz2 + e.a2 * e.ca * e.rx2rz2 - 5 * e.a * e.rx2rz2 *
    e.sa + 3 * e.a * e.rxryrz * e.sa - 3 * e.a2 * e.ca * e.rxryrz - e.a3 * e.rxryrz * e.sa) / e.a6 + 2 * e.py * (e.a3 * e.rx *
    e.sa - 2 * e.a2 * e.ryrz + 8 * e.rx2ryrz - e.a4 * e.ca * e.rx + 2 * e.a2 * e.ca * e.ryrz - 3 * e.a * e.rxrz2 * e.sa + e.a3 *
    e.ryrz * e.sa - 8 * e.ca * e.rx2ryrz + 3 * e.a2 * e.ca * e.rxrz2 + e.a3 * e.rxrz2 * e.sa + e.a2 * e.ca * e.rx2ryrz - 5 * e.a *
    e.rx2ryrz * e.sa) / e.a6 + 2 * e.px * e.rxrz * (4 * e.a2 * e.ca - e.a4 * e.ca + 3 * e.a3 * e.sa - 8 * e.ca * e.rx2 - 4 * e.a2
    + 8 * e.rx2 - 5 * e.a * e.rx2 * e.sa + e.a2 * e.ca * e.rx2) / e.a6 =
      2 * ddE e 0 2 0 := by
  unfold_names
  expand_derivatives
  field_simp
  ring

theorem node19 (e : Env) (ha : e.a ≠ 0) :
    2 * e.px * (8 * e.rx2rz2 - e.a4 * e.ca + e.a4 - 2 * e.a2 * e.rx2 - 2 * e.a2 * e.rz2 + 2 * e.a2 * e.ca * e.rx2 + 2 * e.a2 *
    e.ca * e.rz2 + e.a3 * e.rx2 * e.sa + e.a3 * e.rz2 * e.sa - 8 * e.ca * e.rx2rz2 + e.a2 * e.ca * e.rx2rz2 - 5 * e.a * e.rx2rz2 *
    e.sa - 3 * e.a * e.rxryrz * e.sa + 3 * e.a2 * e.ca * e.rxryrz + e.a3 * e.rxryrz * e.sa) / e.a6 - 2 * e.py * (2 * e.a2 * e.rxry
    + e.a3 * e.rz * e.sa - 8 * e.rxryrz2 - e.a4 * e.ca * e.rz - 2 * e.a2 * e.ca * e.rxry - e.a3 * e.rxry * e.sa - 3 * e.a *
    e.rx2rz * e.sa + 8 * e.ca * e.rxryrz2 + 3 * e.a2 * e.ca * e.rx2rz + e.a3 * e.rx2rz * e.sa - e.a2 * e.ca * e.rxryrz2 + 5 * e.a
    * e.rxryrz2 * e.sa) / e.a6 + 2 * e.pz * e.rxrz * (4 * e.a2 * e.ca - e.a4 * e.ca + 3 * e.a3 * e.sa - 8 * e.ca * e.rz2 - 4 *
    e.a2 + 8 * e.rz2 - 5 * e.a * e.rz2 * e.sa + e.a2 * e.ca * e.rz2) / e.a6 =
      2 * ddE e 0 2 2 := by
  unfold_names
  expand_derivatives
  field_simp
  ring

theorem node20 (e : Env) (ha : e.a ≠ 0) :
    2 * e.px * (2 * e.a2 * e.ryrz + e.a3 * e.rx * e.sa - 8 * e.rx2ryrz - e.a4 * e.ca * e.rx - 2 * e.a2 * e.ca * e.ryrz - 3 * e.a *
    e.rxrz2 * e.sa - e.a3 * e.ryrz * e.sa + 8 * e.ca * e.rx2ryrz + 3 * e.a2 * e.ca * e.rxrz2 + e.a3 * e.rxrz2 * e.sa - e.a2 * e.ca
    * e.rx2ryrz + 5 * e.a * e.rx2ryrz * e.sa) / e.a6 - 2 * e.pz * (e.a3 * e.rz * e.sa - 2 * e.a2 * e.rxry + 8 * e.rxryrz2 - e.a4 *
    e.ca * e.rz + 2 * e.a2 * e.ca * e.rxry + e.a3 * e.rxry * e.sa - 3 * e.a * e.rx2rz * e.sa - 8 * e.ca * e.rxryrz2 + 3 * e.a2 *
    e.ca * e.rx2rz + e.a3 * e.rx2rz * e.sa + e.a2 * e.ca * e.rxryrz2 - 5 * e.a * e.rxryrz2 * e.sa) / e.a6 + 2 * e.py * e.rxrz *
    (e.a4 * e.ca - e.a3 * e.sa + 8 * e.ca * e.ry2 - 8 * e.ry2 + 5 * e.a * e.ry2 * e.sa - e.a2 * e.ca * e.ry2) / e.a6 =
      (-2) * ddE e 0 2 1 := by
  unfold_names
  expand_derivatives
  field_simp
  ring

theorem node21 (e : Env) (ha : e.a ≠ 0) :
    e.py * (e.a3 * e.sa - e.a * e.rz2 * e.sa + e.a2 * e.ca * e.rz2 + 2 * e.rxryrz - 2 * e.ca * e.rxryrz - e.a * e.rxryrz * e.sa) /
    e.a4 - e.pz * (e.a2 * e.rx - 2 * e.rxrz2 + 2 * e.ca * e.rxrz2 - e.a2 * e.ca * e.rx - e.a * e.ryrz * e.sa + e.a2 * e.ca *
    e.ryrz + e.a * e.rxrz2 * e.sa) / e.a4 + e.px * e.rz * (e.a3 * e.sa - 2 * e.ca * e.rx2 + 2 * e.rx2 - e.a * e.rx2 * e.sa) / e.a4 =
      -(dE e 2 0) := by
  unfold_names
  expand_derivatives
  field_simp
  ring

theorem node22 (e : Env) (ha : e.a ≠ 0) :
    e.pz * (e.a2 * e.ry - 2 * e.ryrz2 + 2 * e.ca * e.ryrz2 - e.a2 * e.ca * e.ry + e.a * e.rxrz * e.sa - e.a2 * e.ca * e.rxrz + e.a
    * e.ryrz2 * e.sa) / e.a4 + e.px * (e.a3 * e.sa - e.a * e.rz2 * e.sa + e.a2 * e.ca * e.rz2 - 2 * e.rxryrz + 2 * e.ca * e.rxryrz
    + e.a * e.rxryrz * e.sa) / e.a4 - e.py * e.rz * (e.a3 * e.sa - 2 * e.ca * e.ry2 + 2 * e.ry2 - e.a * e.ry2 * e.sa) / e.a4 =
      dE e 2 1 := by
  unfold_names
  expand_derivatives
  field_simp
  ring

theorem node23 (e : Env) (ha : e.a ≠ 0) :
    e.px * (e.a2 * e.rx - 2 * e.rxrz2 + 2 * e.ca * e.rxrz2 - e.a2 * e.ca * e.rx + e.a * e.ryrz * e.sa - e.a2 * e.ca * e.ryrz + e.a
    * e.rxrz2 * e.sa) / e.a4 + e.py * (e.a2 * e.ry - 2 * e.ryrz2 + 2 * e.ca * e.ryrz2 - e.a2 * e.ca * e.ry - e.a * e.rxrz * e.sa +
    e.a2 * e.ca * e.rxrz + e.a * e.ryrz2 * e.sa) / e.a4 - e.pz * e.rz * (e.a2 - e.rz2) * (2 * e.ca + e.a * e.sa - 2) / e.a4 =
      dE e 2 2 := by
  unfold_names
  expand_derivatives
  field_simp
  ring

theorem node24 (e : Env) (ha : e.a ≠ 0) :
    e.px * (e.a2 * e.ry - 2 * e.rx2ry + 2 * e.ca * e.rx2ry - e.a2 * e.ca * e.ry - e.a * e.rxrz * e.sa + e.a2 * e.ca * e.rxrz + e.a
    * e.rx2ry * e.sa) / e.a4 - e.pz * (e.a3 * e.sa - e.a * e.rx2 * e.sa + e.a2 * e.ca * e.rx2 + 2 * e.rxryrz - 2 * e.ca * e.rxryrz
    - e.a * e.rxryrz * e.sa) / e.a4 - e.py * e.rx * (e.a3 * e.sa - 2 * e.ca * e.ry2 + 2 * e.ry2 - e.a * e.ry2 * e.sa) / e.a4 =
      dE e 0 1 := by
  unfold_names
  expand_derivatives
  field_simp
  ring

theorem node25 (e : Env) (ha : e.a ≠ 0) :
    2 * e.py * (e.a2 * e.rx - 2 * e.rxry2 + 2 * e.ca * e.rxry2 - e.a2 * e.ca * e.rx + e.a * e.ryrz * e.sa - e.a2 * e.ca * e.ryrz +
    e.a * e.rxry2 * e.sa) / e.a4 + 2 * e.pz * (e.a3 * e.sa - e.a * e.ry2 * e.sa + e.a2 * e.ca * e.ry2 - 2 * e.rxryrz + 2 * e.ca *
    e.rxryrz + e.a * e.rxryrz * e.sa) / e.a4 - 2 * e.px * e.ry * (e.a3 * e.sa - 2 * e.ca * e.rx2 + 2 * e.rx2 - e.a * e.rx2 * e.sa)
    / e.a4 =
      2 * dE e 1 0 := by
  unfold_names
  expand_derivatives
  field_simp
  ring

theorem node26 (e : Env) (ha : e.a ≠ 0) :
    2 * e.px * (e.a3 * e.sa - e.a * e.ry2 * e.sa + e.a2 * e.ca * e.ry2 + 2 * e.rxryrz - 2 * e.ca * e.rxryrz - e.a * e.rxryrz *
    e.sa) / e.a4 - 2 * e.py * (e.a2 * e.rz - 2 * e.ry2rz + 2 * e.ca * e.ry2rz - e.a2 * e.ca * e.rz - e.a * e.rxry * e.sa + e.a2 *
    e.ca * e.rxry + e.a * e.ry2rz * e.sa) / e.a4 + 2 * e.pz * e.ry * (e.a3 * e.sa - 2 * e.ca * e.rz2 + 2 * e.rz2 - e.a * e.rz2 *
    e.sa) / e.a4 =
      (-2) * dE e 1 2 := by
  unfold_names
  expand_derivatives
  field_simp
  ring

theorem node27 (e : Env) (ha : e.a ≠ 0) :
    2 * e.px * (e.a2 * e.rx - 2 * e.rxry2 + 2 * e.ca * e.rxry2 - e.a2 * e.ca * e.rx - e.a * e.ryrz * e.sa + e.a2 * e.ca * e.ryrz +
    e.a * e.rxry2 * e.sa) / e.a4 + 2 * e.pz * (e.a2 * e.rz - 2 * e.ry2rz + 2 * e.ca * e.ry2rz - e.a2 * e.ca * e.rz + e.a * e.rxry
    * e.sa - e.a2 * e.ca * e.rxry + e.a * e.ry2rz * e.sa) / e.a4 - 2 * e.py * e.ry * (e.a2 - e.ry2) * (2 * e.ca + e.a * e.sa - 2)
    / e.a4 =
      2 * dE e 1 1 := by
  unfold_names
  expand_derivatives
  field_simp
  ring

theorem node28 (e : Env) (ha : e.a ≠ 0) :
    2 * e.px * (8 * e.rx2ry2 - e.a5 * e.sa - 2 * e.a2 * e.rx2 + 2 * e.a2 * e.ca * e.rx2 - e.a4 * e.ca * e.ry2 + e.a3 * e.rx2 *
    e.sa + e.a3 * e.ry2 * e.sa - 8 * e.ca * e.rx2ry2 + e.a2 * e.ca * e.rx2ry2 - 5 * e.a * e.rx2ry2 * e.sa) / e.a6 - 2 * e.pz * (2
    * e.a2 * e.rxrz - 3 * e.a * e.ry3 * e.sa + 3 * e.a3 * e.ry * e.sa - 8 * e.rxry2rz + 3 * e.a2 * e.ca * e.ry3 + e.a3 * e.ry3 *
    e.sa - 3 * e.a4 * e.ca * e.ry - 2 * e.a2 * e.ca * e.rxrz - e.a3 * e.rxrz * e.sa + 8 * e.ca * e.rxry2rz - e.a2 * e.ca *
    e.rxry2rz + 5 * e.a * e.rxry2rz * e.sa) / e.a6 + 2 * e.py * (8 * e.rxry3 - 6 * e.a2 * e.rxry + e.a3 * e.rz * e.sa - 8 * e.ca *
    e.rxry3 - e.a4 * e.ca * e.rz + 6 * e.a2 * e.ca * e.rxry - 5 * e.a * e.rxry3 * e.sa + 3 * e.a3 * e.rxry * e.sa - 3 * e.a *
    e.ry2rz * e.sa + e.a2 * e.ca * e.rxry3 + 3 * e.a2 * e.ca * e.ry2rz + e.a3 * e.ry2rz * e.sa) / e.a6 =
      2 * ddE e 1 1 0 := by
  unfold_names
  expand_derivatives
  field_simp
  ring

theorem node29 (e : Env) (ha : e.a ≠ 0) :
    2 * e.px * (3 * e.a3 * e.ry * e.sa - 3 * e.a * e.ry3 * e.sa - 2 * e.a2 * e.rxrz + 8 * e.rxry2rz + 3 * e.a2 * e.ca * e.ry3 +
    e.a3 * e.ry3 * e.sa - 3 * e.a4 * e.ca * e.ry + 2 * e.a2 * e.ca * e.rxrz + e.a3 * e.rxrz * e.sa - 8 * e.ca * e.rxry2rz + e.a2 *
    e.ca * e.rxry2rz - 5 * e.a * e.rxry2rz * e.sa) / e.a6 + 2 * e.pz * (8 * e.ry2rz2 - e.a5 * e.sa - 2 * e.a2 * e.rz2 - e.a4 *
    e.ca * e.ry2 + 2 * e.a2 * e.ca * e.rz2 + e.a3 * e.ry2 * e.sa + e.a3 * e.rz2 * e.sa - 8 * e.ca * e.ry2rz2 + e.a2 * e.ca *
    e.ry2rz2 - 5 * e.a * e.ry2rz2 * e.sa) / e.a6 + 2 * e.py * (8 * e.ry3rz - 6 * e.a2 * e.ryrz - e.a3 * e.rx * e.sa - 8 * e.ca *
    e.ry3rz + e.a4 * e.ca * e.rx + 6 * e.a2 * e.ca * e.ryrz + 3 * e.a * e.rxry2 * e.sa - 5 * e.a * e.ry3rz * e.sa + 3 * e.a3 *
    e.ryrz * e.sa - 3 * e.a2 * e.ca * e.rxry2 + e.a2 * e.ca * e.ry3rz - e.a3 * e.rxry2 * e.sa) / e.a6 =
      2 * ddE e 1 1 2 := by
  unfold_names
  expand_derivatives
  field_simp
  ring

theorem node30 (e : Env) (ha : e.a ≠ 0) :
    2 * e.px * (8 * e.rxry3 - 6 * e.a2 * e.rxry - e.a3 * e.rz * e.sa - 8 * e.ca * e.rxry3 + e.a4 * e.ca * e.rz + 6 * e.a2 * e.ca *
    e.rxry - 5 * e.a * e.rxry3 * e.sa + 3 * e.a3 * e.rxry * e.sa + 3 * e.a * e.ry2rz * e.sa + e.a2 * e.ca * e.rxry3 - 3 * e.a2 *
    e.ca * e.ry2rz - e.a3 * e.ry2rz * e.sa) / e.a6 + 2 * e.pz * (8 * e.ry3rz - 6 * e.a2 * e.ryrz + e.a3 * e.rx * e.sa - 8 * e.ca *
    e.ry3rz - e.a4 * e.ca * e.rx + 6 * e.a2 * e.ca * e.ryrz - 3 * e.a * e.rxry2 * e.sa - 5 * e.a * e.ry3rz * e.sa + 3 * e.a3 *
    e.ryrz * e.sa + 3 * e.a2 * e.ca * e.rxry2 + e.a2 * e.ca * e.ry3rz + e.a3 * e.rxry2 * e.sa) / e.a6 - 2 * e.py * (e.a2 - e.ry2)
    * (2 * e.a2 * e.ca + e.a3 * e.sa - 8 * e.ca * e.ry2 - 2 * e.a2 + 8 * e.ry2 - 5 * e.a * e.ry2 * e.sa + e.a2 * e.ca * e.ry2) /
    e.a6 =
      2 * ddE e 1 1 1 := by
  unfold_names
  expand_derivatives
  field_simp
  ring

theorem node31 (e : Env) (ha : e.a ≠ 0) :
    2 * e.pz * (8 * e.ry2rz2 - e.a4 * e.ca + e.a4 - 2 * e.a2 * e.ry2 - 2 * e.a2 * e.rz2 + 2 * e.a2 * e.ca * e.ry2 + 2 * e.a2 *
    e.ca * e.rz2 + e.a3 * e.ry2 * e.sa + e.a3 * e.rz2 * e.sa - 8 * e.ca * e.ry2rz2 + e.a2 * e.ca * e.ry2rz2 - 5 * e.a * e.ry2rz2 *
    e.sa - 3 * e.a * e.rxryrz * e.sa + 3 * e.a2 * e.ca * e.rxryrz + e.a3 * e.rxryrz * e.sa) / e.a6 - 2 * e.px * (2 * e.a2 * e.rxrz
    + e.a3 * e.ry * e.sa - 8 * e.rxry2rz - e.a4 * e.ca * e.ry - 2 * e.a2 * e.ca * e.rxrz - e.a3 * e.rxrz * e.sa - 3 * e.a *
    e.ryrz2 * e.sa + 8 * e.ca * e.rxry2rz + 3 * e.a2 * e.ca * e.ryrz2 + e.a3 * e.ryrz2 * e.sa - e.a2 * e.ca * e.rxry2rz + 5 * e.a
    * e.rxry2rz * e.sa) / e.a6 + 2 * e.py * e.ryrz * (4 * e.a2 * e.ca - e.a4 * e.ca + 3 * e.a3 * e.sa - 8 * e.ca * e.ry2 - 4 *
    e.a2 + 8 * e.ry2 - 5 * e.a * e.ry2 * e.sa + e.a2 * e.ca * e.ry2) / e.a6 =
      2 * ddE e 1 2 1 := by
  unfold_names
  expand_derivatives
  field_simp
  ring

theorem node32 (e : Env) (ha : e.a ≠ 0) :
    2 * e.py * (8 * e.ry2rz2 - e.a4 * e.ca + e.a4 - 2 * e.a2 * e.ry2 - 2 * e.a2 * e.rz2 + 2 * e.a2 * e.ca * e.ry2 + 2 * e.a2 *
    e.ca * e.rz2 + e.a3 * e.ry2 * e.sa + e.a3 * e.rz2 * e.sa - 8 * e.ca * e.ry2rz2 + e.a2 * e.ca * e.ry2rz2 - 5 * e.a * e.ry2rz2 *
    e.sa + 3 * e.a * e.rxryrz * e.sa - 3 * e.a2 * e.ca * e.rxryrz - e.a3 * e.rxryrz * e.sa) / e.a6 + 2 * e.px * (e.a3 * e.rz *
    e.sa - 2 * e.a2 * e.rxry + 8 * e.rxryrz2 - e.a4 * e.ca * e.rz + 2 * e.a2 * e.ca * e.rxry + e.a3 * e.rxry * e.sa - 3 * e.a *
    e.ry2rz * e.sa - 8 * e.ca * e.rxryrz2 + 3 * e.a2 * e.ca * e.ry2rz + e.a3 * e.ry2rz * e.sa + e.a2 * e.ca * e.rxryrz2 - 5 * e.a
    * e.rxryrz2 * e.sa) / e.a6 + 2 * e.pz * e.ryrz * (4 * e.a2 * e.ca - e.a4 * e.ca + 3 * e.a3 * e.sa - 8 * e.ca * e.rz2 - 4 *
    e.a2 + 8 * e.rz2 - 5 * e.a * e.rz2 * e.sa + e.a2 * e.ca * e.rz2) / e.a6 =
      2 * ddE e 1 2 2 := by
  unfold_names
  expand_derivatives
  field_simp
  ring

theorem node33 (e : Env) (ha : e.a ≠ 0) :
    2 * e.pz * (2 * e.a2 * e.rxry + e.a3 * e.rz * e.sa - 8 * e.rxryrz2 - e.a4 * e.ca * e.rz - 2 * e.a2 * e.ca * e.rxry - e.a3 *
    e.rxry * e.sa - 3 * e.a * e.ry2rz * e.sa + 8 * e.ca * e.rxryrz2 + 3 * e.a2 * e.ca * e.ry2rz + e.a3 * e.ry2rz * e.sa - e.a2 *
    e.ca * e.rxryrz2 + 5 * e.a * e.rxryrz2 * e.sa) / e.a6 - 2 * e.py * (e.a3 * e.ry * e.sa - 2 * e.a2 * e.rxrz + 8 * e.rxry2rz -
    e.a4 * e.ca * e.ry + 2 * e.a2 * e.ca * e.rxrz + e.a3 * e.rxrz * e.sa - 3 * e.a * e.ryrz2 * e.sa - 8 * e.ca * e.rxry2rz + 3 *
    e.a2 * e.ca * e.ryrz2 + e.a3 * e.ryrz2 * e.sa + e.a2 * e.ca * e.rxry2rz - 5 * e.a * e.rxry2rz * e.sa) / e.a6 + 2 * e.px *
    e.ryrz * (e.a4 * e.ca - e.a3 * e.sa + 8 * e.ca * e.rx2 - 8 * e.rx2 + 5 * e.a * e.rx2 * e.sa - e.a2 * e.ca * e.rx2) / e.a6 =
      (-2) * ddE e 1 2 0 := by
  unfold_names
  expand_derivatives
  field_simp
  ring

theorem node34 (e : Env) (ha : e.a ≠ 0) :
    e.py * (e.a2 * e.rz - 2 * e.ry2rz + 2 * e.ca * e.ry2rz - e.a2 * e.ca * e.rz - e.a * e.rxry * e.sa + e.a2 * e.ca * e.rxry + e.a
    * e.ry2rz * e.sa) / e.a4 - e.px * (e.a3 * e.sa - e.a * e.ry2 * e.sa + e.a2 * e.ca * e.ry2 + 2 * e.rxryrz - 2 * e.ca * e.rxryrz
    - e.a * e.rxryrz * e.sa) / e.a4 - e.pz * e.ry * (e.a3 * e.sa - 2 * e.ca * e.rz2 + 2 * e.rz2 - e.a * e.rz2 * e.sa) / e.a4 =
      dE e 1 2 := by
  unfold_names
  expand_derivatives
  field_simp
  ring

theorem node35 (e : Env) (ha : e.a ≠ 0) :
    2 * e.py * (e.a3 * e.sa - e.a * e.rz2 * e.sa + e.a2 * e.ca * e.rz2 + 2 * e.rxryrz - 2 * e.ca * e.rxryrz - e.a * e.rxryrz *
    e.sa) / e.a4 - 2 * e.pz * (e.a2 * e.rx - 2 * e.rxrz2 + 2 * e.ca * e.rxrz2 - e.a2 * e.ca * e.rx - e.a * e.ryrz * e.sa + e.a2 *
    e.ca * e.ryrz + e.a * e.rxrz2 * e.sa) / e.a4 + 2 * e.px * e.rz * (e.a3 * e.sa - 2 * e.ca * e.rx2 + 2 * e.rx2 - e.a * e.rx2 *
    e.sa) / e.a4 =
      (-2) * dE e 2 0 := by
  unfold_names
  expand_derivatives
  field_simp
  ring

theorem node36 (e : Env) (ha : e.a ≠ 0) :
    2 * e.pz * (e.a2 * e.ry - 2 * e.ryrz2 + 2 * e.ca * e.ryrz2 - e.a2 * e.ca * e.ry + e.a * e.rxrz * e.sa - e.a2 * e.ca * e.rxrz +
    e.a * e.ryrz2 * e.sa) / e.a4 + 2 * e.px * (e.a3 * e.sa - e.a * e.rz2 * e.sa + e.a2 * e.ca * e.rz2 - 2 * e.rxryrz + 2 * e.ca *
    e.rxryrz + e.a * e.rxryrz * e.sa) / e.a4 - 2 * e.py * e.rz * (e.a3 * e.sa - 2 * e.ca * e.ry2 + 2 * e.ry2 - e.a * e.ry2 * e.sa)
    / e.a4 =
      2 * dE e 2 1 := by
  unfold_names
  expand_derivatives
  field_simp
  ring

theorem node37 (e : Env) (ha : e.a ≠ 0) :
    2 * e.px * (e.a2 * e.rx - 2 * e.rxrz2 + 2 * e.ca * e.rxrz2 - e.a2 * e.ca * e.rx + e.a * e.ryrz * e.sa - e.a2 * e.ca * e.ryrz +
    e.a * e.rxrz2 * e.sa) / e.a4 + 2 * e.py * (e.a2 * e.ry - 2 * e.ryrz2 + 2 * e.ca * e.ryrz2 - e.a2 * e.ca * e.ry - e.a * e.rxrz
    * e.sa + e.a2 * e.ca * e.rxrz + e.a * e.ryrz2 * e.sa) / e.a4 - 2 * e.pz * e.rz * (e.a2 - e.rz2) * (2 * e.ca + e.a * e.sa - 2)
    / e.a4 =
      2 * dE e 2 2 := by
  unfold_names
  expand_derivatives
  field_simp
  ring

theorem node38 (e : Env) (ha : e.a ≠ 0) :
    2 * e.py * (3 * e.a3 * e.rz * e.sa - 3 * e.a * e.rz3 * e.sa - 2 * e.a2 * e.rxry + 8 * e.rxryrz2 + 3 * e.a2 * e.ca * e.rz3 +
    e.a3 * e.rz3 * e.sa - 3 * e.a4 * e.ca * e.rz + 2 * e.a2 * e.ca * e.rxry + e.a3 * e.rxry * e.sa - 8 * e.ca * e.rxryrz2 + e.a2 *
    e.ca * e.rxryrz2 - 5 * e.a * e.rxryrz2 * e.sa) / e.a6 + 2 * e.px * (8 * e.rx2rz2 - e.a5 * e.sa - 2 * e.a2 * e.rx2 + 2 * e.a2 *
    e.ca * e.rx2 - e.a4 * e.ca * e.rz2 + e.a3 * e.rx2 * e.sa + e.a3 * e.rz2 * e.sa - 8 * e.ca * e.rx2rz2 + e.a2 * e.ca * e.rx2rz2
    - 5 * e.a * e.rx2rz2 * e.sa) / e.a6 + 2 * e.pz * (8 * e.rxrz3 - 6 * e.a2 * e.rxrz - e.a3 * e.ry * e.sa - 8 * e.ca * e.rxrz3 +
    e.a4 * e.ca * e.ry + 6 * e.a2 * e.ca * e.rxrz - 5 * e.a * e.rxrz3 * e.sa + 3 * e.a3 * e.rxrz * e.sa + 3 * e.a * e.ryrz2 * e.sa
    + e.a2 * e.ca * e.rxrz3 - 3 * e.a2 * e.ca * e.ryrz2 - e.a3 * e.ryrz2 * e.sa) / e.a6 =
      2 * ddE e 2 2 0 := by
  unfold_names
  expand_derivatives
  field_simp
  ring

theorem node39 (e : Env) (ha : e.a ≠ 0) :
    2 * e.py * (8 * e.ry2rz2 - e.a5 * e.sa - 2 * e.a2 * e.ry2 + 2 * e.a2 * e.ca * e.ry2 - e.a4 * e.ca * e.rz2 + e.a3 * e.ry2 *
    e.sa + e.a3 * e.rz2 * e.sa - 8 * e.ca * e.ry2rz2 + e.a2 * e.ca * e.ry2rz2 - 5 * e.a * e.ry2rz2 * e.sa) / e.a6 - 2 * e.px * (2
    * e.a2 * e.rxry - 3 * e.a * e.rz3 * e.sa + 3 * e.a3 * e.rz * e.sa - 8 * e.rxryrz2 + 3 * e.a2 * e.ca * e.rz3 + e.a3 * e.rz3 *
    e.sa - 3 * e.a4 * e.ca * e.rz - 2 * e.a2 * e.ca * e.rxry - e.a3 * e.rxry * e.sa + 8 * e.ca * e.rxryrz2 - e.a2 * e.ca *
    e.rxryrz2 + 5 * e.a * e.rxryrz2 * e.sa) / e.a6 + 2 * e.pz * (8 * e.ryrz3 - 6 * e.a2 * e.ryrz + e.a3 * e.rx * e.sa - 8 * e.ca *
    e.ryrz3 - e.a4 * e.ca * e.rx + 6 * e.a2 * e.ca * e.ryrz - 3 * e.a * e.rxrz2 * e.sa - 5 * e.a * e.ryrz3 * e.sa + 3 * e.a3 *
    e.ryrz * e.sa + 3 * e.a2 * e.ca * e.rxrz2 + e.a2 * e.ca * e.ryrz3 + e.a3 * e.rxrz2 * e.sa) / e.a6 =
      2 * ddE e 2 2 1 := by
  unfold_names
  expand_derivatives
  field_simp
  ring

theorem node40 (e : Env) (ha : e.a ≠ 0) :
    2 * e.px * (8 * e.rxrz3 - 6 * e.a2 * e.rxrz + e.a3 * e.ry * e.sa - 8 * e.ca * e.rxrz3 - e.a4 * e.ca * e.ry + 6 * e.a2 * e.ca *
    e.rxrz - 5 * e.a * e.rxrz3 * e.sa + 3 * e.a3 * e.rxrz * e.sa - 3 * e.a * e.ryrz2 * e.sa + e.a2 * e.ca * e.rxrz3 + 3 * e.a2 *
    e.ca * e.ryrz2 + e.a3 * e.ryrz2 * e.sa) / e.a6 + 2 * e.py * (8 * e.ryrz3 - 6 * e.a2 * e.ryrz - e.a3 * e.rx * e.sa - 8 * e.ca *
    e.ryrz3 + e.a4 * e.ca * e.rx + 6 * e.a2 * e.ca * e.ryrz + 3 * e.a * e.rxrz2 * e.sa - 5 * e.a * e.ryrz3 * e.sa + 3 * e.a3 *
    e.ryrz * e.sa - 3 * e.a2 * e.ca * e.rxrz2 + e.a2 * e.ca * e.ryrz3 - e.a3 * e.rxrz2 * e.sa) / e.a6 - 2 * e.pz * (e.a2 - e.rz2)
    * (2 * e.a2 * e.ca + e.a3 * e.sa - 8 * e.ca * e.rz2 - 2 * e.a2 + 8 * e.rz2 - 5 * e.a * e.rz2 * e.sa + e.a2 * e.ca * e.rz2) /
    e.a6 =
      2 * ddE e 2 2 2 := by
  unfold_names
  expand_derivatives
  field_simp
  ring

theorem node41 (e : Env) (ha : e.a ≠ 0) :
    e.pz * (e.a2 * e.rx - 2 * e.rxrz2 + 2 * e.ca * e.rxrz2 - e.a2 * e.ca * e.rx - e.a * e.ryrz * e.sa + e.a2 * e.ca * e.ryrz + e.a
    * e.rxrz2 * e.sa) / e.a4 - e.py * (e.a3 * e.sa - e.a * e.rz2 * e.sa + e.a2 * e.ca * e.rz2 + 2 * e.rxryrz - 2 * e.ca * e.rxryrz
    - e.a * e.rxryrz * e.sa) / e.a4 - e.px * e.rz * (e.a3 * e.sa - 2 * e.ca * e.rx2 + 2 * e.rx2 - e.a * e.rx2 * e.sa) / e.a4 =
      dE e 2 0 := by
  unfold_names
  expand_derivatives
  field_simp
  ring

theorem node42 (e : Env) (ha : e.a ≠ 0) :
    e.a2 * e.ry - 2 * e.rx2ry + 2 * e.ca * e.rx2ry - e.a2 * e.ca * e.ry - e.a * e.rxrz * e.sa + e.a2 * e.ca * e.rxrz + e.a *
    e.rx2ry * e.sa =
      e.a ^ 4 * dR e 0 1 0 := by
  unfold_names
  expand_derivatives
  field_simp
  ring

theorem node43 (e : Env) (ha : e.a ≠ 0) :
    e.a2 * e.rz - 2 * e.rx2rz + 2 * e.ca * e.rx2rz - e.a2 * e.ca * e.rz + e.a * e.rxry * e.sa - e.a2 * e.ca * e.rxry + e.a *
    e.rx2rz * e.sa =
      e.a ^ 4 * dR e 0 2 0 := by
  unfold_names
  expand_derivatives
  field_simp
  ring

theorem node44 (e : Env) (ha : e.a ≠ 0) :
    e.rx * (e.a2 - e.rx2) * (2 * e.ca + e.a * e.sa - 2) =
      -(e.a ^ 4 * dR e 0 0 0) := by
  unfold_names
  expand_derivatives
  field_simp
  ring

theorem node45 (e : Env) (ha : e.a ≠ 0) :
    e.a * e.ry * e.sa - e.rxrz + e.ca * e.rxrz =
      -(e.a ^ 2 * R e 2 0) := by
  unfold_names
  expand_derivatives
  field_simp
  ring

theorem node46 (e : Env) (ha : e.a ≠ 0) :
    e.rxry + e.a * e.rz * e.sa - e.ca * e.rxry =
      e.a ^ 2 * R e 1 0 := by
  unfold_names
  expand_derivatives
  field_simp
  ring

theorem node47 (e : Env) (ha : e.a ≠ 0) :
    e.a2 * e.ca - e.ca * e.rx2 + e.rx2 =
      e.a ^ 2 * R e 0 0 := by
  unfold_names
  expand_derivatives
  field_simp
  ring

theorem node48 (e : Env) (ha : e.a ≠ 0) :
    e.a2 * e.ry - 2 * e.rx2ry + 2 * e.ca * e.rx2ry - e.a2 * e.ca * e.ry + e.a * e.rxrz * e.sa - e.a2 * e.ca * e.rxrz + e.a *
    e.rx2ry * e.sa =
      e.a ^ 4 * dR e 0 0 1 := by
  unfold_names
  expand_derivatives
  field_simp
  ring

theorem node49 (e : Env) (ha : e.a ≠ 0) :
    e.a3 * e.sa - e.a * e.rx2 * e.sa + e.a2 * e.ca * e.rx2 - 2 * e.rxryrz + 2 * e.ca * e.rxryrz + e.a * e.rxryrz * e.sa =
      e.a ^ 4 * dR e 0 2 1 := by
  unfold_names
  expand_derivatives
  field_simp
  ring

theorem node50 (e : Env) (ha : e.a ≠ 0) :
    e.rx * (e.a3 * e.sa - 2 * e.ca * e.ry2 + 2 * e.ry2 - e.a * e.ry2 * e.sa) =
      -(e.a ^ 4 * dR e 0 1 1) := by
  unfold_names
  expand_derivatives
  field_simp
  ring

theorem node51 (e : Env) (ha : e.a ≠ 0) :
    e.ryrz + e.a * e.rx * e.sa - e.ca * e.ryrz =
      e.a ^ 2 * R e 2 1 := by
  unfold_names
  expand_derivatives
  field_simp
  ring

theorem node52 (e : Env) (ha : e.a ≠ 0) :
    e.a * e.rz * e.sa - e.rxry + e.ca * e.rxry =
      -(e.a ^ 2 * R e 0 1) := by
  unfold_names
  expand_derivatives
  field_simp
  ring

theorem node53 (e : Env) (ha : e.a ≠ 0) :
    e.a2 * e.ca - e.ca * e.ry2 + e.ry2 =
      e.a ^ 2 * R e 1 1 := by
  unfold_names
  expand_derivatives
  field_simp
  ring

theorem node54 (e : Env) (ha : e.a ≠ 0) :
    e.a2 * e.rz - 2 * e.rx2rz + 2 * e.ca * e.rx2rz - e.a2 * e.ca * e.rz - e.a * e.rxry * e.sa + e.a2 * e.ca * e.rxry + e.a *
    e.rx2rz * e.sa =
      e.a ^ 4 * dR e 0 0 2 := by
  unfold_names
  expand_derivatives
  field_simp
  ring

theorem node55 (e : Env) (ha : e.a ≠ 0) :
    e.a3 * e.sa - e.a * e.rx2 * e.sa + e.a2 * e.ca * e.rx2 + 2 * e.rxryrz - 2 * e.ca * e.rxryrz - e.a * e.rxryrz * e.sa =
      -(e.a ^ 4 * dR e 0 1 2) := by
  unfold_names
  expand_derivatives
  field_simp
  ring

theorem node56 (e : Env) (ha : e.a ≠ 0) :
    e.rx * (e.a3 * e.sa - 2 * e.ca * e.rz2 + 2 * e.rz2 - e.a * e.rz2 * e.sa) =
      -(e.a ^ 4 * dR e 0 2 2) := by
  unfold_names
  expand_derivatives
  field_simp
  ring

theorem node57 (e : Env) (ha : e.a ≠ 0) :
    e.rxrz + e.a * e.ry * e.sa - e.ca * e.rxrz =
      e.a ^ 2 * R e 0 2 := by
  unfold_names
  expand_derivatives
  field_simp
  ring

theorem node58 (e : Env) (ha : e.a ≠ 0) :
    e.a * e.rx * e.sa - e.ryrz + e.ca * e.ryrz =
      -(e.a ^ 2 * R e 1 2) := by
  unfold_names
  expand_derivatives
  field_simp
  ring

theorem node59 (e : Env) (ha : e.a ≠ 0) :
    e.a2 * e.ca - e.ca * e.rz2 + e.rz2 =
      e.a ^ 2 * R e 2 2 := by
  unfold_names
  expand_derivatives
  field_simp
  ring

theorem node60 (e : Env) (ha : e.a ≠ 0) :
    e.px * e.rx * (e.a2 - e.rx2) * (2 * e.ca + e.a * e.sa - 2) / e.a4 - e.pz * (e.a2 * e.rz - 2 * e.rx2rz + 2 * e.ca * e.rx2rz -
    e.a2 * e.ca * e.rz - e.a * e.rxry * e.sa + e.a2 * e.ca * e.rxry + e.a * e.rx2rz * e.sa) / e.a4 - e.py * (e.a2 * e.ry - 2 *
    e.rx2ry + 2 * e.ca * e.rx2ry - e.a2 * e.ca * e.ry + e.a * e.rxrz * e.sa - e.a2 * e.ca * e.rxrz + e.a * e.rx2ry * e.sa) / e.a4 =
      -(dE e 0 0) := by
  unfold_names
  expand_derivatives
  field_simp
  ring

theorem node61 (e : Env) (ha : e.a ≠ 0) :
    e.pz * e.rx * (e.a3 * e.sa - 2 * e.ca * e.rz2 + 2 * e.rz2 - e.a * e.rz2 * e.sa) / e.a4 - e.py * (e.a3 * e.sa - e.a * e.rx2 *
    e.sa + e.a2 * e.ca * e.rx2 - 2 * e.rxryrz + 2 * e.ca * e.rxryrz + e.a * e.rxryrz * e.sa) / e.a4 - e.px * (e.a2 * e.rz - 2 *
    e.rx2rz + 2 * e.ca * e.rx2rz - e.a2 * e.ca * e.rz + e.a * e.rxry * e.sa - e.a2 * e.ca * e.rxry + e.a * e.rx2rz * e.sa) / e.a4 =
      -(dE e 0 2) := by
  unfold_names
  expand_derivatives
  field_simp
  ring

theorem node62 (e : Env) (ha : e.a ≠ 0) :
    e.a2 * e.rx - 2 * e.rxry2 + 2 * e.ca * e.rxry2 - e.a2 * e.ca * e.rx - e.a * e.ryrz * e.sa + e.a2 * e.ca * e.ryrz + e.a *
    e.rxry2 * e.sa =
      e.a ^ 4 * dR e 1 1 0 := by
  unfold_names
  expand_derivatives
  field_simp
  ring

theorem node63 (e : Env) (ha : e.a ≠ 0) :
    e.a3 * e.sa - e.a * e.ry2 * e.sa + e.a2 * e.ca * e.ry2 + 2 * e.rxryrz - 2 * e.ca * e.rxryrz - e.a * e.rxryrz * e.sa =
      -(e.a ^ 4 * dR e 1 2 0) := by
  unfold_names
  expand_derivatives
  field_simp
  ring

theorem node64 (e : Env) (ha : e.a ≠ 0) :
    e.ry * (e.a3 * e.sa - 2 * e.ca * e.rx2 + 2 * e.rx2 - e.a * e.rx2 * e.sa) =
      -(e.a ^ 4 * dR e 1 0 0) := by
  unfold_names
  expand_derivatives
  field_simp
  ring

theorem node65 (e : Env) (ha : e.a ≠ 0) :
    e.a2 * e.rx - 2 * e.rxry2 + 2 * e.ca * e.rxry2 - e.a2 * e.ca * e.rx + e.a * e.ryrz * e.sa - e.a2 * e.ca * e.ryrz + e.a *
    e.rxry2 * e.sa =
      e.a ^ 4 * dR e 1 0 1 := by
  unfold_names
  expand_derivatives
  field_simp
  ring

theorem node66 (e : Env) (ha : e.a ≠ 0) :
    e.a2 * e.rz - 2 * e.ry2rz + 2 * e.ca * e.ry2rz - e.a2 * e.ca * e.rz - e.a * e.rxry * e.sa + e.a2 * e.ca * e.rxry + e.a *
    e.ry2rz * e.sa =
      e.a ^ 4 * dR e 1 2 1 := by
  unfold_names
  expand_derivatives
  field_simp
  ring

theorem node67 (e : Env) (ha : e.a ≠ 0) :
    e.ry * (e.a2 - e.ry2) * (2 * e.ca + e.a * e.sa - 2) =
      -(e.a ^ 4 * dR e 1 1 1) := by
  unfold_names
  expand_derivatives
  field_simp
  ring

theorem node68 (e : Env) (ha : e.a ≠ 0) :
    e.a2 * e.rz - 2 * e.ry2rz + 2 * e.ca * e.ry2rz - e.a2 * e.ca * e.rz + e.a * e.rxry * e.sa - e.a2 * e.ca * e.rxry + e.a *
    e.ry2rz * e.sa =
      e.a ^ 4 * dR e 1 1 2 := by
  unfold_names
  expand_derivatives
  field_simp
  ring

theorem node69 (e : Env) (ha : e.a ≠ 0) :
    e.a3 * e.sa - e.a * e.ry2 * e.sa + e.a2 * e.ca * e.ry2 - 2 * e.rxryrz + 2 * e.ca * e.rxryrz + e.a * e.rxryrz * e.sa =
      e.a ^ 4 * dR e 1 0 2 := by
  unfold_names
  expand_derivatives
  field_simp
  ring

theorem node70 (e : Env) (ha : e.a ≠ 0) :
    e.ry * (e.a3 * e.sa - 2 * e.ca * e.rz2 + 2 * e.rz2 - e.a * e.rz2 * e.sa) =
      -(e.a ^ 4 * dR e 1 2 2) := by
  unfold_names
  expand_derivatives
  field_simp
  ring

theorem node71 (e : Env) (ha : e.a ≠ 0) :
    e.px * e.ry * (e.a3 * e.sa - 2 * e.ca * e.rx2 + 2 * e.rx2 - e.a * e.rx2 * e.sa) / e.a4 - e.pz * (e.a3 * e.sa - e.a * e.ry2 *
    e.sa + e.a2 * e.ca * e.ry2 - 2 * e.rxryrz + 2 * e.ca * e.rxryrz + e.a * e.rxryrz * e.sa) / e.a4 - e.py * (e.a2 * e.rx - 2 *
    e.rxry2 + 2 * e.ca * e.rxry2 - e.a2 * e.ca * e.rx + e.a * e.ryrz * e.sa - e.a2 * e.ca * e.ryrz + e.a * e.rxry2 * e.sa) / e.a4 =
      -(dE e 1 0) := by
  unfold_names
  expand_derivatives
  field_simp
  ring

theorem node72 (e : Env) (ha : e.a ≠ 0) :
    e.py * e.ry * (e.a2 - e.ry2) * (2 * e.ca + e.a * e.sa - 2) / e.a4 - e.pz * (e.a2 * e.rz - 2 * e.ry2rz + 2 * e.ca * e.ry2rz -
    e.a2 * e.ca * e.rz + e.a * e.rxry * e.sa - e.a2 * e.ca * e.rxry + e.a * e.ry2rz * e.sa) / e.a4 - e.px * (e.a2 * e.rx - 2 *
    e.rxry2 + 2 * e.ca * e.rxry2 - e.a2 * e.ca * e.rx - e.a * e.ryrz * e.sa + e.a2 * e.ca * e.ryrz + e.a * e.rxry2 * e.sa) / e.a4 =
      -(dE e 1 1) := by
  unfold_names
  expand_derivatives
  field_simp
  ring

theorem node73 (e : Env) (ha : e.a ≠ 0) :
    e.a2 * e.rx - 2 * e.rxrz2 + 2 * e.ca * e.rxrz2 - e.a2 * e.ca * e.rx + e.a * e.ryrz * e.sa - e.a2 * e.ca * e.ryrz + e.a *
    e.rxrz2 * e.sa =
      e.a ^ 4 * dR e 2 2 0 := by
  unfold_names
  expand_derivatives
  field_simp
  ring

theorem node74 (e : Env) (ha : e.a ≠ 0) :
    e.a3 * e.sa - e.a * e.rz2 * e.sa + e.a2 * e.ca * e.rz2 - 2 * e.rxryrz + 2 * e.ca * e.rxryrz + e.a * e.rxryrz * e.sa =
      e.a ^ 4 * dR e 2 1 0 := by
  unfold_names
  expand_derivatives
  field_simp
  ring

theorem node75 (e : Env) (ha : e.a ≠ 0) :
    e.rz * (e.a3 * e.sa - 2 * e.ca * e.rx2 + 2 * e.rx2 - e.a * e.rx2 * e.sa) =
      -(e.a ^ 4 * dR e 2 0 0) := by
  unfold_names
  expand_derivatives
  field_simp
  ring

theorem node76 (e : Env) (ha : e.a ≠ 0) :
    e.a2 * e.ry - 2 * e.ryrz2 + 2 * e.ca * e.ryrz2 - e.a2 * e.ca * e.ry - e.a * e.rxrz * e.sa + e.a2 * e.ca * e.rxrz + e.a *
    e.ryrz2 * e.sa =
      e.a ^ 4 * dR e 2 2 1 := by
  unfold_names
  expand_derivatives
  field_simp
  ring

theorem node77 (e : Env) (ha : e.a ≠ 0) :
    e.a3 * e.sa - e.a * e.rz2 * e.sa + e.a2 * e.ca * e.rz2 + 2 * e.rxryrz - 2 * e.ca * e.rxryrz - e.a * e.rxryrz * e.sa =
      -(e.a ^ 4 * dR e 2 0 1) := by
  unfold_names
  expand_derivatives
  field_simp
  ring

theorem node78 (e : Env) (ha : e.a ≠ 0) :
    e.rz * (e.a3 * e.sa - 2 * e.ca * e.ry2 + 2 * e.ry2 - e.a * e.ry2 * e.sa) =
      -(e.a ^ 4 * dR e 2 1 1) := by
  unfold_names
  expand_derivatives
  field_simp
  ring

theorem node79 (e : Env) (ha : e.a ≠ 0) :
    e.a2 * e.rx - 2 * e.rxrz2 + 2 * e.ca * e.rxrz2 - e.a2 * e.ca * e.rx - e.a * e.ryrz * e.sa + e.a2 * e.ca * e.ryrz + e.a *
    e.rxrz2 * e.sa =
      e.a ^ 4 * dR e 2 0 2 := by
  unfold_names
  expand_derivatives
  field_simp
  ring

theorem node80 (e : Env) (ha : e.a ≠ 0) :
    e.a2 * e.ry - 2 * e.ryrz2 + 2 * e.ca * e.ryrz2 - e.a2 * e.ca * e.ry + e.a * e.rxrz * e.sa - e.a2 * e.ca * e.rxrz + e.a *
    e.ryrz2 * e.sa =
      e.a ^ 4 * dR e 2 1 2 := by
  unfold_names
  expand_derivatives
  field_simp
  ring

theorem node81 (e : Env) (ha : e.a ≠ 0) :
    e.rz * (e.a2 - e.rz2) * (2 * e.ca + e.a * e.sa - 2) =
      -(e.a ^ 4 * dR e 2 2 2) := by
  unfold_names
  expand_derivatives
  field_simp
  ring

theorem node82 (e : Env) (ha : e.a ≠ 0) :
    e.py * e.rz * (e.a3 * e.sa - 2 * e.ca * e.ry2 + 2 * e.ry2 - e.a * e.ry2 * e.sa) / e.a4 - e.px * (e.a3 * e.sa - e.a * e.rz2 *
    e.sa + e.a2 * e.ca * e.rz2 - 2 * e.rxryrz + 2 * e.ca * e.rxryrz + e.a * e.rxryrz * e.sa) / e.a4 - e.pz * (e.a2 * e.ry - 2 *
    e.ryrz2 + 2 * e.ca * e.ryrz2 - e.a2 * e.ca * e.ry + e.a * e.rxrz * e.sa - e.a2 * e.ca * e.rxrz + e.a * e.ryrz2 * e.sa) / e.a4 =
      -(dE e 2 1) := by
  unfold_names
  expand_derivatives
  field_simp
  ring

theorem node83 (e : Env) (ha : e.a ≠ 0) :
    e.pz * e.rz * (e.a2 - e.rz2) * (2 * e.ca + e.a * e.sa - 2) / e.a4 - e.py * (e.a2 * e.ry - 2 * e.ryrz2 + 2 * e.ca * e.ryrz2 -
    e.a2 * e.ca * e.ry - e.a * e.rxrz * e.sa + e.a2 * e.ca * e.rxrz + e.a * e.ryrz2 * e.sa) / e.a4 - e.px * (e.a2 * e.rx - 2 *
    e.rxrz2 + 2 * e.ca * e.rxrz2 - e.a2 * e.ca * e.rx + e.a * e.ryrz * e.sa - e.a2 * e.ca * e.ryrz + e.a * e.rxrz2 * e.sa) / e.a4 =
      -(dE e 2 2) := by
  unfold_names
  expand_derivatives
  field_simp
  ring

theorem node84 (e : Env) (ha : e.a ≠ 0) :
    e.ca - e.rx2 * e.cam1 / e.a2 =
      R e 0 0 := by
  unfold_names
  expand_derivatives
  field_simp
  ring

theorem node85 (e : Env) (ha : e.a ≠ 0) :
    -(e.rz * e.sa) / e.a - e.rxry * e.cam1 / e.a2 =
      R e 0 1 := by
  unfold_names
  expand_derivatives
  field_simp
  ring

theorem node86 (e : Env) (ha : e.a ≠ 0) :
    e.ry * e.sa / e.a - e.rxrz * e.cam1 / e.a2 =
      R e 0 2 := by
  unfold_names
  expand_derivatives
  field_simp
  ring

theorem node87 (e : Env) (ha : e.a ≠ 0) :
    e.rz * e.sa / e.a - e.rxry * e.cam1 / e.a2 =
      R e 1 0 := by
  unfold_names
  expand_derivatives
  field_simp
  ring

theorem node88 (e : Env) (ha : e.a ≠ 0) :
    e.ca - e.ry2 * e.cam1 / e.a2 =
      R e 1 1 := by
  unfold_names
  expand_derivatives
  field_simp
  ring

theorem node89 (e : Env) (ha : e.a ≠ 0) :
    -(e.rx * e.sa) / e.a - e.ryrz * e.cam1 / e.a2 =
      R e 1 2 := by
  unfold_names
  expand_derivatives
  field_simp
  ring

theorem node90 (e : Env) (ha : e.a ≠ 0) :
    -(e.ry * e.sa) / e.a - e.rxrz * e.cam1 / e.a2 =
      R e 2 0 := by
  unfold_names
  expand_derivatives
  field_simp
  ring

theorem node91 (e : Env) (ha : e.a ≠ 0) :
    e.rx * e.sa / e.a - e.ryrz * e.cam1 / e.a2 =
      R e 2 1 := by
  unfold_names
  expand_derivatives
  field_simp
  ring

theorem node92 (e : Env) (ha : e.a ≠ 0) :
    e.ca - e.rz2 * e.cam1 / e.a2 =
      R e 2 2 := by
  unfold_names
  expand_derivatives
  field_simp
  ring

theorem node93 (e : Env) (ha : e.a ≠ 0) :
    2 * e.nx * (e.py * (8 * e.rx3ry - 6 * e.a2 * e.rxry + e.a3 * e.rz * e.sa - 8 * e.ca * e.rx3ry - e.a4 * e.ca * e.rz + 6 * e.a2
    * e.ca * e.rxry - 5 * e.a * e.rx3ry * e.sa + 3 * e.a3 * e.rxry * e.sa - 3 * e.a * e.rx2rz * e.sa + e.a2 * e.ca * e.rx3ry + 3 *
    e.a2 * e.ca * e.rx2rz + e.a3 * e.rx2rz * e.sa) / e.a6 + e.pz * (8 * e.rx3rz - 6 * e.a2 * e.rxrz - e.a3 * e.ry * e.sa - 8 *
    e.ca * e.rx3rz + e.a4 * e.ca * e.ry + 6 * e.a2 * e.ca * e.rxrz + 3 * e.a * e.rx2ry * e.sa - 5 * e.a * e.rx3rz * e.sa + 3 *
    e.a3 * e.rxrz * e.sa - 3 * e.a2 * e.ca * e.rx2ry + e.a2 * e.ca * e.rx3rz - e.a3 * e.rx2ry * e.sa) / e.a6 - e.px * (e.a2 -
    e.rx2) * (2 * e.a2 * e.ca + e.a3 * e.sa - 8 * e.ca * e.rx2 - 2 * e.a2 + 8 * e.rx2 - 5 * e.a * e.rx2 * e.sa + e.a2 * e.ca *
    e.rx2) / e.a6) + 2 * e.ny * (e.pz * (3 * e.a3 * e.rx * e.sa - 3 * e.a * e.rx3 * e.sa - 2 * e.a2 * e.ryrz + 8 * e.rx2ryrz + 3 *
    e.a2 * e.ca * e.rx3 + e.a3 * e.rx3 * e.sa - 3 * e.a4 * e.ca * e.rx + 2 * e.a2 * e.ca * e.ryrz + e.a3 * e.ryrz * e.sa - 8 *
    e.ca * e.rx2ryrz + e.a2 * e.ca * e.rx2ryrz - 5 * e.a * e.rx2ryrz * e.sa) / e.a6 + e.py * (8 * e.rx2ry2 - e.a5 * e.sa - 2 *
    e.a2 * e.ry2 - e.a4 * e.ca * e.rx2 + 2 * e.a2 * e.ca * e.ry2 + e.a3 * e.rx2 * e.sa + e.a3 * e.ry2 * e.sa - 8 * e.ca * e.rx2ry2
    + e.a2 * e.ca * e.rx2ry2 - 5 * e.a * e.rx2ry2 * e.sa) / e.a6 + e.px * (8 * e.rx3ry - 6 * e.a2 * e.rxry - e.a3 * e.rz * e.sa -
    8 * e.ca * e.rx3ry + e.a4 * e.ca * e.rz + 6 * e.a2 * e.ca * e.rxry - 5 * e.a * e.rx3ry * e.sa + 3 * e.a3 * e.rxry * e.sa + 3 *
    e.a * e.rx2rz * e.sa + e.a2 * e.ca * e.rx3ry - 3 * e.a2 * e.ca * e.rx2rz - e.a3 * e.rx2rz * e.sa) / e.a6) + 2 * e.nz * (e.pz *
    (8 * e.rx2rz2 - e.a5 * e.sa - 2 * e.a2 * e.rz2 - e.a4 * e.ca * e.rx2 + 2 * e.a2 * e.ca * e.rz2 + e.a3 * e.rx2 * e.sa + e.a3 *
    e.rz2 * e.sa - 8 * e.ca * e.rx2rz2 + e.a2 * e.ca * e.rx2rz2 - 5 * e.a * e.rx2rz2 * e.sa) / e.a6 - e.py * (2 * e.a2 * e.ryrz -
    3 * e.a * e.rx3 * e.sa + 3 * e.a3 * e.rx * e.sa - 8 * e.rx2ryrz + 3 * e.a2 * e.ca * e.rx3 + e.a3 * e.rx3 * e.sa - 3 * e.a4 *
    e.ca * e.rx - 2 * e.a2 * e.ca * e.ryrz - e.a3 * e.ryrz * e.sa + 8 * e.ca * e.rx2ryrz - e.a2 * e.ca * e.rx2ryrz + 5 * e.a *
    e.rx2ryrz * e.sa) / e.a6 + e.px * (8 * e.rx3rz - 6 * e.a2 * e.rxrz + e.a3 * e.ry * e.sa - 8 * e.ca * e.rx3rz - e.a4 * e.ca *
    e.ry + 6 * e.a2 * e.ca * e.rxrz - 3 * e.a * e.rx2ry * e.sa - 5 * e.a * e.rx3rz * e.sa + 3 * e.a3 * e.rxrz * e.sa + 3 * e.a2 *
    e.ca * e.rx2ry + e.a2 * e.ca * e.rx3rz + e.a3 * e.rx2ry * e.sa) / e.a6) =
      2 * nddE e 0 0 := by
  unfold_names
  expand_derivatives
  field_simp
  ring

theorem node94 (e : Env) (ha : e.a ≠ 0) (hr : e.rx2 + e.ry2 + e.rz2 = e.a2) :
    e.a3 * e.nz * e.py * e.sa - e.a3 * e.ny * e.pz * e.sa - 2 * e.nx * e.px * e.rx3 + 2 * e.ca * e.nx * e.px * e.rx3 - 2 * e.nx *
    e.py * e.rx2ry - 2 * e.ny * e.px * e.rx2ry - 2 * e.ny * e.py * e.rxry2 - 2 * e.nx * e.pz * e.rx2rz - 2 * e.nz * e.px * e.rx2rz
    - 2 * e.nz * e.pz * e.rxrz2 + 2 * e.nx * e.px * e.rx * (e.rx2 + e.ry2 + e.rz2) + e.nx * e.py * e.ry * (e.rx2 + e.ry2 + e.rz2)
    + e.ny * e.px * e.ry * (e.rx2 + e.ry2 + e.rz2) + e.nx * e.pz * e.rz * (e.rx2 + e.ry2 + e.rz2) + e.nz * e.px * e.rz * (e.rx2 +
    e.ry2 + e.rz2) - e.ca * e.ny * e.pz * e.rx2 * (e.rx2 + e.ry2 + e.rz2) + e.ca * e.nz * e.py * e.rx2 * (e.rx2 + e.ry2 + e.rz2) -
    2 * e.ny * e.pz * e.rxryrz - 2 * e.nz * e.py * e.rxryrz + e.a * e.nx * e.px * e.rx3 * e.sa - e.a3 * e.nx * e.px * e.rx * e.sa
    - e.a3 * e.ny * e.py * e.rx * e.sa + e.a * e.ny * e.pz * e.rx2 * e.sa - e.a * e.nz * e.py * e.rx2 * e.sa - e.a3 * e.nz * e.pz
    * e.rx * e.sa + 2 * e.ca * e.nx * e.py * e.rx2ry + 2 * e.ca * e.ny * e.px * e.rx2ry + 2 * e.ca * e.ny * e.py * e.rxry2 + 2 *
    e.ca * e.nx * e.pz * e.rx2rz + 2 * e.ca * e.nz * e.px * e.rx2rz + 2 * e.ca * e.nz * e.pz * e.rxrz2 - 2 * e.ca * e.nx * e.px *
    e.rx * (e.rx2 + e.ry2 + e.rz2) - e.ca * e.nx * e.py * e.ry * (e.rx2 + e.ry2 + e.rz2) - e.ca * e.ny * e.px * e.ry * (e.rx2 +
    e.ry2 + e.rz2) - e.ca * e.nx * e.pz * e.rz * (e.rx2 + e.ry2 + e.rz2) - e.ca * e.nz * e.px * e.rz * (e.rx2 + e.ry2 + e.rz2) +
    e.a * e.nx * e.py * e.rx2ry * e.sa + e.a * e.ny * e.px * e.rx2ry * e.sa + e.a * e.ny * e.py * e.rxry2 * e.sa + e.a * e.nx *
    e.pz * e.rx2rz * e.sa + e.a * e.nz * e.px * e.rx2rz * e.sa + e.a * e.nz * e.pz * e.rxrz2 * e.sa - e.ca * e.nx * e.py * e.rxrz
    * (e.rx2 + e.ry2 + e.rz2) + e.ca * e.nx * e.pz * e.rxry * (e.rx2 + e.ry2 + e.rz2) + e.ca * e.ny * e.px * e.rxrz * (e.rx2 +
    e.ry2 + e.rz2) - e.ca * e.nz * e.px * e.rxry * (e.rx2 + e.ry2 + e.rz2) + e.a * e.nx * e.py * e.rxrz * e.sa - e.a * e.nx * e.pz
    * e.rxry * e.sa - e.a * e.ny * e.px * e.rxrz * e.sa + e.a * e.nz * e.px * e.rxry * e.sa + 2 * e.ca * e.ny * e.pz * e.rxryrz +
    2 * e.ca * e.nz * e.py * e.rxryrz + e.a * e.ny * e.pz * e.rxryrz * e.sa + e.a * e.nz * e.py * e.rxryrz * e.sa =
      e.a ^ 4 * ndE e 0 := by
  simp only [hr]
  unfold_names
  expand_derivatives
  field_simp
  ring

theorem node95 (e : Env) (ha : e.a ≠ 0) (hr : e.rx2 + e.ry2 + e.rz2 = e.a2) :
    2 * e.nx * (e.py * (e.a2 * e.ry - 2 * e.rx2ry + 2 * e.ca * e.rx2ry - e.a2 * e.ca * e.ry + e.a * e.rxrz * e.sa - e.a2 * e.ca *
    e.rxrz + e.a * e.rx2ry * e.sa) / e.a4 + e.pz * (e.a2 * e.rz - 2 * e.rx2rz + 2 * e.ca * e.rx2rz - e.a2 * e.ca * e.rz - e.a *
    e.rxry * e.sa + e.a2 * e.ca * e.rxry + e.a * e.rx2rz * e.sa) / e.a4 - e.px * e.rx * (e.a2 - e.rx2) * (2 * e.ca + e.a * e.sa -
    2) / e.a4) + 2 * e.ny * (e.px * e.ry * (e.rx2 + e.ry2 + e.rz2) - 2 * e.px * e.rx2ry - 2 * e.py * e.rxry2 - e.a3 * e.pz * e.sa
    - 2 * e.pz * e.rxryrz - e.a3 * e.py * e.rx * e.sa + e.a * e.pz * e.rx2 * e.sa + 2 * e.ca * e.px * e.rx2ry + 2 * e.ca * e.py *
    e.rxry2 - e.ca * e.px * e.ry * (e.rx2 + e.ry2 + e.rz2) - e.ca * e.pz * e.rx2 * (e.rx2 + e.ry2 + e.rz2) - e.a * e.px * e.rxrz *
    e.sa + 2 * e.ca * e.pz * e.rxryrz + e.a * e.px * e.rx2ry * e.sa + e.a * e.py * e.rxry2 * e.sa + e.ca * e.px * e.rxrz * (e.rx2
    + e.ry2 + e.rz2) + e.a * e.pz * e.rxryrz * e.sa) / e.a4 + 2 * e.nz * (e.a3 * e.py * e.sa - 2 * e.px * e.rx2rz - 2 * e.pz *
    e.rxrz2 + e.px * e.rz * (e.rx2 + e.ry2 + e.rz2) - 2 * e.py * e.rxryrz - e.a * e.py * e.rx2 * e.sa - e.a3 * e.pz * e.rx * e.sa
    + 2 * e.ca * e.px * e.rx2rz + 2 * e.ca * e.pz * e.rxrz2 - e.ca * e.px * e.rz * (e.rx2 + e.ry2 + e.rz2) + e.ca * e.py * e.rx2 *
    (e.rx2 + e.ry2 + e.rz2) + e.a * e.px * e.rxry * e.sa + 2 * e.ca * e.py * e.rxryrz + e.a * e.px * e.rx2rz * e.sa + e.a * e.pz *
    e.rxrz2 * e.sa - e.ca * e.px * e.rxry * (e.rx2 + e.ry2 + e.rz2) + e.a * e.py * e.rxryrz * e.sa) / e.a4 =
      2 * ndE e 0 := by
  simp only [hr]
  unfold_names
  expand_derivatives
  field_simp
  ring

theorem node96 (e : Env) (ha : e.a ≠ 0) :
    e.nx * (e.a2 * e.tx - e.a2 * e.qx + e.px * e.rx2 - e.ca * e.px * e.rx2 + e.py * e.rxry + e.pz * e.rxrz + e.a2 * e.ca * e.px -
    e.a * e.py * e.rz * e.sa + e.a * e.pz * e.ry * e.sa - e.ca * e.py * e.rxry - e.ca * e.pz * e.rxrz) / e.a2 + e.ny * (e.a2 *
    e.ty - e.a2 * e.qy + e.py * e.ry2 - e.ca * e.py * e.ry2 + e.px * e.rxry + e.pz * e.ryrz + e.a2 * e.ca * e.py + e.a * e.px *
    e.rz * e.sa - e.a * e.pz * e.rx * e.sa - e.ca * e.px * e.rxry - e.ca * e.pz * e.ryrz) / e.a2 + e.nz * (e.a2 * e.tz - e.a2 *
    e.qz + e.pz * e.rz2 - e.ca * e.pz * e.rz2 + e.px * e.rxrz + e.py * e.ryrz + e.a2 * e.ca * e.pz - e.a * e.px * e.ry * e.sa +
    e.a * e.py * e.rx * e.sa - e.ca * e.px * e.rxrz - e.ca * e.py * e.ryrz) / e.a2 =
      nE e := by
  unfold_names
  expand_derivatives
  field_simp
  ring

theorem node97 (e : Env) (ha : e.a ≠ 0) (hr : e.rx2 + e.ry2 + e.rz2 = e.a2) :
    2 * e.nx * (e.py * (8 * e.rx2ry2 - e.a4 * e.ca + e.a4 - 2 * e.a2 * e.rx2 - 2 * e.a2 * e.ry2 + 2 * e.a2 * e.ca * e.rx2 + 2 *
    e.a2 * e.ca * e.ry2 + e.a3 * e.rx2 * e.sa + e.a3 * e.ry2 * e.sa - 8 * e.ca * e.rx2ry2 + e.a2 * e.ca * e.rx2ry2 - 5 * e.a *
    e.rx2ry2 * e.sa - 3 * e.a * e.rxryrz * e.sa + 3 * e.a2 * e.ca * e.rxryrz + e.a3 * e.rxryrz * e.sa) / e.a6 - e.pz * (2 * e.a2 *
    e.ryrz + e.a3 * e.rx * e.sa - 8 * e.rx2ryrz - e.a4 * e.ca * e.rx - 2 * e.a2 * e.ca * e.ryrz - 3 * e.a * e.rxry2 * e.sa - e.a3
    * e.ryrz * e.sa + 8 * e.ca * e.rx2ryrz + 3 * e.a2 * e.ca * e.rxry2 + e.a3 * e.rxry2 * e.sa - e.a2 * e.ca * e.rx2ryrz + 5 * e.a
    * e.rx2ryrz * e.sa) / e.a6 + e.px * e.rxry * (4 * e.a2 * e.ca - e.a4 * e.ca + 3 * e.a3 * e.sa - 8 * e.ca * e.rx2 - 4 * e.a2 +
    8 * e.rx2 - 5 * e.a * e.rx2 * e.sa + e.a2 * e.ca * e.rx2) / e.a6) + 2 * e.ny * (e.px * (8 * e.rx2ry2 - e.a4 * e.ca + e.a4 - 2
    * e.a2 * e.rx2 - 2 * e.a2 * e.ry2 + 2 * e.a2 * e.ca * e.rx2 + 2 * e.a2 * e.ca * e.ry2 + e.a3 * e.rx2 * e.sa + e.a3 * e.ry2 *
    e.sa - 8 * e.ca * e.rx2ry2 + e.a2 * e.ca * e.rx2ry2 - 5 * e.a * e.rx2ry2 * e.sa + 3 * e.a * e.rxryrz * e.sa - 3 * e.a2 * e.ca
    * e.rxryrz - e.a3 * e.rxryrz * e.sa) / e.a6 + e.pz * (e.a3 * e.ry * e.sa - 2 * e.a2 * e.rxrz + 8 * e.rxry2rz - e.a4 * e.ca *
    e.ry + 2 * e.a2 * e.ca * e.rxrz - 3 * e.a * e.rx2ry * e.sa + e.a3 * e.rxrz * e.sa - 8 * e.ca * e.rxry2rz + 3 * e.a2 * e.ca *
    e.rx2ry + e.a3 * e.rx2ry * e.sa + e.a2 * e.ca * e.rxry2rz - 5 * e.a * e.rxry2rz * e.sa) / e.a6 + e.py * e.rxry * (4 * e.a2 *
    e.ca - e.a4 * e.ca + 3 * e.a3 * e.sa - 8 * e.ca * e.ry2 - 4 * e.a2 + 8 * e.ry2 - 5 * e.a * e.ry2 * e.sa + e.a2 * e.ca * e.ry2)
    / e.a6) + 2 * e.nz * (e.a4 * e.ca * e.py * e.ry - e.a4 * e.ca * e.px * e.rx + e.a3 * e.px * e.rx * e.sa - e.a3 * e.py * e.ry *
    e.sa + 8 * e.px * e.rx2ryrz + 8 * e.py * e.rxry2rz + 8 * e.pz * e.rxryrz2 - 2 * e.px * e.ryrz * (e.rx2 + e.ry2 + e.rz2) - 2 *
    e.py * e.rxrz * (e.rx2 + e.ry2 + e.rz2) + e.a3 * e.px * e.rxry2 * e.sa - e.a3 * e.py * e.rx2ry * e.sa + 3 * e.ca * e.px *
    e.rxry2 * (e.rx2 + e.ry2 + e.rz2) - 3 * e.ca * e.py * e.rx2ry * (e.rx2 + e.ry2 + e.rz2) - e.a4 * e.ca * e.pz * e.rxry - 3 *
    e.a * e.px * e.rxry2 * e.sa + 3 * e.a * e.py * e.rx2ry * e.sa + e.a3 * e.px * e.ryrz * e.sa + e.a3 * e.py * e.rxrz * e.sa +
    e.a3 * e.pz * e.rxry * e.sa - 8 * e.ca * e.px * e.rx2ryrz - 8 * e.ca * e.py * e.rxry2rz - 8 * e.ca * e.pz * e.rxryrz2 + 2 *
    e.ca * e.px * e.ryrz * (e.rx2 + e.ry2 + e.rz2) + 2 * e.ca * e.py * e.rxrz * (e.rx2 + e.ry2 + e.rz2) - 5 * e.a * e.px *
    e.rx2ryrz * e.sa - 5 * e.a * e.py * e.rxry2rz * e.sa - 5 * e.a * e.pz * e.rxryrz2 * e.sa + e.ca * e.px * e.rx2ryrz * (e.rx2 +
    e.ry2 + e.rz2) + e.ca * e.py * e.rxry2rz * (e.rx2 + e.ry2 + e.rz2) + e.ca * e.pz * e.rxryrz2 * (e.rx2 + e.ry2 + e.rz2)) / e.a6 =
      2 * nddE e 0 1 := by
  simp only [hr]
  unfold_names
  expand_derivatives
  field_simp
  ring

theorem node98 (e : Env) (ha : e.a ≠ 0) (hr : e.rx2 + e.ry2 + e.rz2 = e.a2) :
    e.a3 * e.nx * e.pz * e.sa - 2 * e.ny * e.py * e.ry3 - e.a3 * e.nz * e.px * e.sa + 2 * e.ca * e.ny * e.py * e.ry3 - 2 * e.nx *
    e.px * e.rx2ry - 2 * e.nx * e.py * e.rxry2 - 2 * e.ny * e.px * e.rxry2 - 2 * e.ny * e.pz * e.ry2rz - 2 * e.nz * e.py * e.ry2rz
    - 2 * e.nz * e.pz * e.ryrz2 + e.nx * e.py * e.rx * (e.rx2 + e.ry2 + e.rz2) + e.ny * e.px * e.rx * (e.rx2 + e.ry2 + e.rz2) + 2
    * e.ny * e.py * e.ry * (e.rx2 + e.ry2 + e.rz2) + e.ny * e.pz * e.rz * (e.rx2 + e.ry2 + e.rz2) + e.nz * e.py * e.rz * (e.rx2 +
    e.ry2 + e.rz2) + e.ca * e.nx * e.pz * e.ry2 * (e.rx2 + e.ry2 + e.rz2) - e.ca * e.nz * e.px * e.ry2 * (e.rx2 + e.ry2 + e.rz2) -
    2 * e.nx * e.pz * e.rxryrz - 2 * e.nz * e.px * e.rxryrz - e.a3 * e.nx * e.px * e.ry * e.sa - e.a * e.nx * e.pz * e.ry2 * e.sa
    + e.a * e.nz * e.px * e.ry2 * e.sa + e.a * e.ny * e.py * e.ry3 * e.sa - e.a3 * e.ny * e.py * e.ry * e.sa - e.a3 * e.nz * e.pz
    * e.ry * e.sa + 2 * e.ca * e.nx * e.px * e.rx2ry + 2 * e.ca * e.nx * e.py * e.rxry2 + 2 * e.ca * e.ny * e.px * e.rxry2 + 2 *
    e.ca * e.ny * e.pz * e.ry2rz + 2 * e.ca * e.nz * e.py * e.ry2rz + 2 * e.ca * e.nz * e.pz * e.ryrz2 - e.ca * e.nx * e.py * e.rx
    * (e.rx2 + e.ry2 + e.rz2) - e.ca * e.ny * e.px * e.rx * (e.rx2 + e.ry2 + e.rz2) - 2 * e.ca * e.ny * e.py * e.ry * (e.rx2 +
    e.ry2 + e.rz2) - e.ca * e.ny * e.pz * e.rz * (e.rx2 + e.ry2 + e.rz2) - e.ca * e.nz * e.py * e.rz * (e.rx2 + e.ry2 + e.rz2) +
    e.a * e.nx * e.px * e.rx2ry * e.sa + e.a * e.nx * e.py * e.rxry2 * e.sa + e.a * e.ny * e.px * e.rxry2 * e.sa + e.a * e.ny *
    e.pz * e.ry2rz * e.sa + e.a * e.nz * e.py * e.ry2rz * e.sa + e.a * e.nz * e.pz * e.ryrz2 * e.sa - e.ca * e.nx * e.py * e.ryrz
    * (e.rx2 + e.ry2 + e.rz2) + e.ca * e.ny * e.px * e.ryrz * (e.rx2 + e.ry2 + e.rz2) - e.ca * e.ny * e.pz * e.rxry * (e.rx2 +
    e.ry2 + e.rz2) + e.ca * e.nz * e.py * e.rxry * (e.rx2 + e.ry2 + e.rz2) + e.a * e.nx * e.py * e.ryrz * e.sa - e.a * e.ny * e.px
    * e.ryrz * e.sa + e.a * e.ny * e.pz * e.rxry * e.sa - e.a * e.nz * e.py * e.rxry * e.sa + 2 * e.ca * e.nx * e.pz * e.rxryrz +
    2 * e.ca * e.nz * e.px * e.rxryrz + e.a * e.nx * e.pz * e.rxryrz * e.sa + e.a * e.nz * e.px * e.rxryrz * e.sa =
      e.a ^ 4 * ndE e 1 := by
  simp only [hr]
  unfold_names
  expand_derivatives
  field_simp
  ring

theorem node99 (e : Env) (ha : e.a ≠ 0) (hr : e.rx2 + e.ry2 + e.rz2 = e.a2) :
    2 * e.nx * (e.pz * (8 * e.rx2rz2 - e.a4 * e.ca + e.a4 - 2 * e.a2 * e.rx2 - 2 * e.a2 * e.rz2 + 2 * e.a2 * e.ca * e.rx2 + 2 *
    e.a2 * e.ca * e.rz2 + e.a3 * e.rx2 * e.sa + e.a3 * e.rz2 * e.sa - 8 * e.ca * e.rx2rz2 + e.a2 * e.ca * e.rx2rz2 - 5 * e.a *
    e.rx2rz2 * e.sa + 3 * e.a * e.rxryrz * e.sa - 3 * e.a2 * e.ca * e.rxryrz - e.a3 * e.rxryrz * e.sa) / e.a6 + e.py * (e.a3 *
    e.rx * e.sa - 2 * e.a2 * e.ryrz + 8 * e.rx2ryrz - e.a4 * e.ca * e.rx + 2 * e.a2 * e.ca * e.ryrz - 3 * e.a * e.rxrz2 * e.sa +
    e.a3 * e.ryrz * e.sa - 8 * e.ca * e.rx2ryrz + 3 * e.a2 * e.ca * e.rxrz2 + e.a3 * e.rxrz2 * e.sa + e.a2 * e.ca * e.rx2ryrz - 5
    * e.a * e.rx2ryrz * e.sa) / e.a6 + e.px * e.rxrz * (4 * e.a2 * e.ca - e.a4 * e.ca + 3 * e.a3 * e.sa - 8 * e.ca * e.rx2 - 4 *
    e.a2 + 8 * e.rx2 - 5 * e.a * e.rx2 * e.sa + e.a2 * e.ca * e.rx2) / e.a6) + 2 * e.nz * (e.px * (8 * e.rx2rz2 - e.a4 * e.ca +
    e.a4 - 2 * e.a2 * e.rx2 - 2 * e.a2 * e.rz2 + 2 * e.a2 * e.ca * e.rx2 + 2 * e.a2 * e.ca * e.rz2 + e.a3 * e.rx2 * e.sa + e.a3 *
    e.rz2 * e.sa - 8 * e.ca * e.rx2rz2 + e.a2 * e.ca * e.rx2rz2 - 5 * e.a * e.rx2rz2 * e.sa - 3 * e.a * e.rxryrz * e.sa + 3 * e.a2
    * e.ca * e.rxryrz + e.a3 * e.rxryrz * e.sa) / e.a6 - e.py * (2 * e.a2 * e.rxry + e.a3 * e.rz * e.sa - 8 * e.rxryrz2 - e.a4 *
    e.ca * e.rz - 2 * e.a2 * e.ca * e.rxry - e.a3 * e.rxry * e.sa - 3 * e.a * e.rx2rz * e.sa + 8 * e.ca * e.rxryrz2 + 3 * e.a2 *
    e.ca * e.rx2rz + e.a3 * e.rx2rz * e.sa - e.a2 * e.ca * e.rxryrz2 + 5 * e.a * e.rxryrz2 * e.sa) / e.a6 + e.pz * e.rxrz * (4 *
    e.a2 * e.ca - e.a4 * e.ca + 3 * e.a3 * e.sa - 8 * e.ca * e.rz2 - 4 * e.a2 + 8 * e.rz2 - 5 * e.a * e.rz2 * e.sa + e.a2 * e.ca *
    e.rz2) / e.a6) + 2 * e.ny * (e.a4 * e.ca * e.px * e.rx - e.a4 * e.ca * e.pz * e.rz - e.a3 * e.px * e.rx * e.sa + e.a3 * e.pz *
    e.rz * e.sa + 8 * e.px * e.rx2ryrz + 8 * e.py * e.rxry2rz + 8 * e.pz * e.rxryrz2 - 2 * e.px * e.ryrz * (e.rx2 + e.ry2 + e.rz2)
    - 2 * e.pz * e.rxry * (e.rx2 + e.ry2 + e.rz2) - e.a3 * e.px * e.rxrz2 * e.sa + e.a3 * e.pz * e.rx2rz * e.sa - 3 * e.ca * e.px
    * e.rxrz2 * (e.rx2 + e.ry2 + e.rz2) + 3 * e.ca * e.pz * e.rx2rz * (e.rx2 + e.ry2 + e.rz2) - e.a4 * e.ca * e.py * e.rxrz + 3 *
    e.a * e.px * e.rxrz2 * e.sa + e.a3 * e.px * e.ryrz * e.sa + e.a3 * e.py * e.rxrz * e.sa + e.a3 * e.pz * e.rxry * e.sa - 3 *
    e.a * e.pz * e.rx2rz * e.sa - 8 * e.ca * e.px * e.rx2ryrz - 8 * e.ca * e.py * e.rxry2rz - 8 * e.ca * e.pz * e.rxryrz2 + 2 *
    e.ca * e.px * e.ryrz * (e.rx2 + e.ry2 + e.rz2) + 2 * e.ca * e.pz * e.rxry * (e.rx2 + e.ry2 + e.rz2) - 5 * e.a * e.px *
    e.rx2ryrz * e.sa - 5 * e.a * e.py * e.rxry2rz * e.sa - 5 * e.a * e.pz * e.rxryrz2 * e.sa + e.ca * e.px * e.rx2ryrz * (e.rx2 +
    e.ry2 + e.rz2) + e.ca * e.py * e.rxry2rz * (e.rx2 + e.ry2 + e.rz2) + e.ca * e.pz * e.rxryrz2 * (e.rx2 + e.ry2 + e.rz2)) / e.a6 =
      2 * nddE e 0 2 := by
  simp only [hr]
  unfold_names
  expand_derivatives
  field_simp
  ring

theorem node100 (e : Env) (ha : e.a ≠ 0) (hr : e.rx2 + e.ry2 + e.rz2 = e.a2) :
    e.a3 * e.ny * e.px * e.sa - e.a3 * e.nx * e.py * e.sa - 2 * e.nz * e.pz * e.rz3 + 2 * e.ca * e.nz * e.pz * e.rz3 - 2 * e.nx *
    e.px * e.rx2rz - 2 * e.nx * e.pz * e.rxrz2 - 2 * e.nz * e.px * e.rxrz2 - 2 * e.ny * e.py * e.ry2rz - 2 * e.ny * e.pz * e.ryrz2
    - 2 * e.nz * e.py * e.ryrz2 + e.nx * e.pz * e.rx * (e.rx2 + e.ry2 + e.rz2) + e.nz * e.px * e.rx * (e.rx2 + e.ry2 + e.rz2) +
    e.ny * e.pz * e.ry * (e.rx2 + e.ry2 + e.rz2) + e.nz * e.py * e.ry * (e.rx2 + e.ry2 + e.rz2) + 2 * e.nz * e.pz * e.rz * (e.rx2
    + e.ry2 + e.rz2) - e.ca * e.nx * e.py * e.rz2 * (e.rx2 + e.ry2 + e.rz2) + e.ca * e.ny * e.px * e.rz2 * (e.rx2 + e.ry2 + e.rz2)
    - 2 * e.nx * e.py * e.rxryrz - 2 * e.ny * e.px * e.rxryrz - e.a3 * e.nx * e.px * e.rz * e.sa + e.a * e.nx * e.py * e.rz2 *
    e.sa - e.a * e.ny * e.px * e.rz2 * e.sa - e.a3 * e.ny * e.py * e.rz * e.sa + e.a * e.nz * e.pz * e.rz3 * e.sa - e.a3 * e.nz *
    e.pz * e.rz * e.sa + 2 * e.ca * e.nx * e.px * e.rx2rz + 2 * e.ca * e.nx * e.pz * e.rxrz2 + 2 * e.ca * e.nz * e.px * e.rxrz2 +
    2 * e.ca * e.ny * e.py * e.ry2rz + 2 * e.ca * e.ny * e.pz * e.ryrz2 + 2 * e.ca * e.nz * e.py * e.ryrz2 - e.ca * e.nx * e.pz *
    e.rx * (e.rx2 + e.ry2 + e.rz2) - e.ca * e.nz * e.px * e.rx * (e.rx2 + e.ry2 + e.rz2) - e.ca * e.ny * e.pz * e.ry * (e.rx2 +
    e.ry2 + e.rz2) - e.ca * e.nz * e.py * e.ry * (e.rx2 + e.ry2 + e.rz2) - 2 * e.ca * e.nz * e.pz * e.rz * (e.rx2 + e.ry2 + e.rz2)
    + e.a * e.nx * e.px * e.rx2rz * e.sa + e.a * e.nx * e.pz * e.rxrz2 * e.sa + e.a * e.nz * e.px * e.rxrz2 * e.sa + e.a * e.ny *
    e.py * e.ry2rz * e.sa + e.a * e.ny * e.pz * e.ryrz2 * e.sa + e.a * e.nz * e.py * e.ryrz2 * e.sa + e.ca * e.nx * e.pz * e.ryrz
    * (e.rx2 + e.ry2 + e.rz2) - e.ca * e.ny * e.pz * e.rxrz * (e.rx2 + e.ry2 + e.rz2) - e.ca * e.nz * e.px * e.ryrz * (e.rx2 +
    e.ry2 + e.rz2) + e.ca * e.nz * e.py * e.rxrz * (e.rx2 + e.ry2 + e.rz2) - e.a * e.nx * e.pz * e.ryrz * e.sa + e.a * e.ny * e.pz
    * e.rxrz * e.sa + e.a * e.nz * e.px * e.ryrz * e.sa - e.a * e.nz * e.py * e.rxrz * e.sa + 2 * e.ca * e.nx * e.py * e.rxryrz +
    2 * e.ca * e.ny * e.px * e.rxryrz + e.a * e.nx * e.py * e.rxryrz * e.sa + e.a * e.ny * e.px * e.rxryrz * e.sa =
      e.a ^ 4 * ndE e 2 := by
  simp only [hr]
  unfold_names
  expand_derivatives
  field_simp
  ring

theorem node101 (e : Env) (ha : e.a ≠ 0) :
    2 * e.nx * (e.py * (e.a2 * e.ry - 2 * e.rx2ry + 2 * e.ca * e.rx2ry - e.a2 * e.ca * e.ry + e.a * e.rxrz * e.sa - e.a2 * e.ca *
    e.rxrz + e.a * e.rx2ry * e.sa) / e.a4 + e.pz * (e.a2 * e.rz - 2 * e.rx2rz + 2 * e.ca * e.rx2rz - e.a2 * e.ca * e.rz - e.a *
    e.rxry * e.sa + e.a2 * e.ca * e.rxry + e.a * e.rx2rz * e.sa) / e.a4 - e.px * e.rx * (e.a2 - e.rx2) * (2 * e.ca + e.a * e.sa -
    2) / e.a4) - 2 * e.ny * (e.pz * (e.a3 * e.sa - e.a * e.rx2 * e.sa + e.a2 * e.ca * e.rx2 + 2 * e.rxryrz - 2 * e.ca * e.rxryrz -
    e.a * e.rxryrz * e.sa) / e.a4 - e.px * (e.a2 * e.ry - 2 * e.rx2ry + 2 * e.ca * e.rx2ry - e.a2 * e.ca * e.ry - e.a * e.rxrz *
    e.sa + e.a2 * e.ca * e.rxrz + e.a * e.rx2ry * e.sa) / e.a4 + e.py * e.rx * (e.a3 * e.sa - 2 * e.ca * e.ry2 + 2 * e.ry2 - e.a *
    e.ry2 * e.sa) / e.a4) + 2 * e.nz * (e.px * (e.a2 * e.rz - 2 * e.rx2rz + 2 * e.ca * e.rx2rz - e.a2 * e.ca * e.rz + e.a * e.rxry
    * e.sa - e.a2 * e.ca * e.rxry + e.a * e.rx2rz * e.sa) / e.a4 + e.py * (e.a3 * e.sa - e.a * e.rx2 * e.sa + e.a2 * e.ca * e.rx2
    - 2 * e.rxryrz + 2 * e.ca * e.rxryrz + e.a * e.rxryrz * e.sa) / e.a4 - e.pz * e.rx * (e.a3 * e.sa - 2 * e.ca * e.rz2 + 2 *
    e.rz2 - e.a * e.rz2 * e.sa) / e.a4) =
      2 * ndE e 0 := by
  unfold_names
  expand_derivatives
  field_simp
  ring

theorem node102 (e : Env) (ha : e.a ≠ 0) (hr : e.rx2 + e.ry2 + e.rz2 = e.a2) :
    2 * e.ny * (e.px * (e.a2 * e.rx - 2 * e.rxry2 + 2 * e.ca * e.rxry2 - e.a2 * e.ca * e.rx - e.a * e.ryrz * e.sa + e.a2 * e.ca *
    e.ryrz + e.a * e.rxry2 * e.sa) / e.a4 + e.pz * (e.a2 * e.rz - 2 * e.ry2rz + 2 * e.ca * e.ry2rz - e.a2 * e.ca * e.rz + e.a *
    e.rxry * e.sa - e.a2 * e.ca * e.rxry + e.a * e.ry2rz * e.sa) / e.a4 - e.py * e.ry * (e.a2 - e.ry2) * (2 * e.ca + e.a * e.sa -
    2) / e.a4) + 2 * e.nx * (e.a3 * e.pz * e.sa - 2 * e.px * e.rx2ry - 2 * e.py * e.rxry2 + e.py * e.rx * (e.rx2 + e.ry2 + e.rz2)
    - 2 * e.pz * e.rxryrz - e.a3 * e.px * e.ry * e.sa - e.a * e.pz * e.ry2 * e.sa + 2 * e.ca * e.px * e.rx2ry + 2 * e.ca * e.py *
    e.rxry2 - e.ca * e.py * e.rx * (e.rx2 + e.ry2 + e.rz2) + e.ca * e.pz * e.ry2 * (e.rx2 + e.ry2 + e.rz2) + e.a * e.py * e.ryrz *
    e.sa + 2 * e.ca * e.pz * e.rxryrz + e.a * e.px * e.rx2ry * e.sa + e.a * e.py * e.rxry2 * e.sa - e.ca * e.py * e.ryrz * (e.rx2
    + e.ry2 + e.rz2) + e.a * e.pz * e.rxryrz * e.sa) / e.a4 + 2 * e.nz * (e.py * e.rz * (e.rx2 + e.ry2 + e.rz2) - 2 * e.py *
    e.ry2rz - 2 * e.pz * e.ryrz2 - e.a3 * e.px * e.sa - 2 * e.px * e.rxryrz + e.a * e.px * e.ry2 * e.sa - e.a3 * e.pz * e.ry *
    e.sa + 2 * e.ca * e.py * e.ry2rz + 2 * e.ca * e.pz * e.ryrz2 - e.ca * e.py * e.rz * (e.rx2 + e.ry2 + e.rz2) - e.ca * e.px *
    e.ry2 * (e.rx2 + e.ry2 + e.rz2) - e.a * e.py * e.rxry * e.sa + 2 * e.ca * e.px * e.rxryrz + e.a * e.py * e.ry2rz * e.sa + e.a
    * e.pz * e.ryrz2 * e.sa + e.ca * e.py * e.rxry * (e.rx2 + e.ry2 + e.rz2) + e.a * e.px * e.rxryrz * e.sa) / e.a4 =
      2 * ndE e 1 := by
  simp only [hr]
  unfold_names
  expand_derivatives
  field_simp
  ring

theorem node103 (e : Env) (ha : e.a ≠ 0) :
    2 * e.ny * (e.px * (8 * e.rxry3 - 6 * e.a2 * e.rxry - e.a3 * e.rz * e.sa - 8 * e.ca * e.rxry3 + e.a4 * e.ca * e.rz + 6 * e.a2
    * e.ca * e.rxry - 5 * e.a * e.rxry3 * e.sa + 3 * e.a3 * e.rxry * e.sa + 3 * e.a * e.ry2rz * e.sa + e.a2 * e.ca * e.rxry3 - 3 *
    e.a2 * e.ca * e.ry2rz - e.a3 * e.ry2rz * e.sa) / e.a6 + e.pz * (8 * e.ry3rz - 6 * e.a2 * e.ryrz + e.a3 * e.rx * e.sa - 8 *
    e.ca * e.ry3rz - e.a4 * e.ca * e.rx + 6 * e.a2 * e.ca * e.ryrz - 3 * e.a * e.rxry2 * e.sa - 5 * e.a * e.ry3rz * e.sa + 3 *
    e.a3 * e.ryrz * e.sa + 3 * e.a2 * e.ca * e.rxry2 + e.a2 * e.ca * e.ry3rz + e.a3 * e.rxry2 * e.sa) / e.a6 - e.py * (e.a2 -
    e.ry2) * (2 * e.a2 * e.ca + e.a3 * e.sa - 8 * e.ca * e.ry2 - 2 * e.a2 + 8 * e.ry2 - 5 * e.a * e.ry2 * e.sa + e.a2 * e.ca *
    e.ry2) / e.a6) + 2 * e.nx * (e.px * (8 * e.rx2ry2 - e.a5 * e.sa - 2 * e.a2 * e.rx2 + 2 * e.a2 * e.ca * e.rx2 - e.a4 * e.ca *
    e.ry2 + e.a3 * e.rx2 * e.sa + e.a3 * e.ry2 * e.sa - 8 * e.ca * e.rx2ry2 + e.a2 * e.ca * e.rx2ry2 - 5 * e.a * e.rx2ry2 * e.sa)
    / e.a6 - e.pz * (2 * e.a2 * e.rxrz - 3 * e.a * e.ry3 * e.sa + 3 * e.a3 * e.ry * e.sa - 8 * e.rxry2rz + 3 * e.a2 * e.ca * e.ry3
    + e.a3 * e.ry3 * e.sa - 3 * e.a4 * e.ca * e.ry - 2 * e.a2 * e.ca * e.rxrz - e.a3 * e.rxrz * e.sa + 8 * e.ca * e.rxry2rz - e.a2
    * e.ca * e.rxry2rz + 5 * e.a * e.rxry2rz * e.sa) / e.a6 + e.py * (8 * e.rxry3 - 6 * e.a2 * e.rxry + e.a3 * e.rz * e.sa - 8 *
    e.ca * e.rxry3 - e.a4 * e.ca * e.rz + 6 * e.a2 * e.ca * e.rxry - 5 * e.a * e.rxry3 * e.sa + 3 * e.a3 * e.rxry * e.sa - 3 * e.a
    * e.ry2rz * e.sa + e.a2 * e.ca * e.rxry3 + 3 * e.a2 * e.ca * e.ry2rz + e.a3 * e.ry2rz * e.sa) / e.a6) + 2 * e.nz * (e.px * (3
    * e.a3 * e.ry * e.sa - 3 * e.a * e.ry3 * e.sa - 2 * e.a2 * e.rxrz + 8 * e.rxry2rz + 3 * e.a2 * e.ca * e.ry3 + e.a3 * e.ry3 *
    e.sa - 3 * e.a4 * e.ca * e.ry + 2 * e.a2 * e.ca * e.rxrz + e.a3 * e.rxrz * e.sa - 8 * e.ca * e.rxry2rz + e.a2 * e.ca *
    e.rxry2rz - 5 * e.a * e.rxry2rz * e.sa) / e.a6 + e.pz * (8 * e.ry2rz2 - e.a5 * e.sa - 2 * e.a2 * e.rz2 - e.a4 * e.ca * e.ry2 +
    2 * e.a2 * e.ca * e.rz2 + e.a3 * e.ry2 * e.sa + e.a3 * e.rz2 * e.sa - 8 * e.ca * e.ry2rz2 + e.a2 * e.ca * e.ry2rz2 - 5 * e.a *
    e.ry2rz2 * e.sa) / e.a6 + e.py * (8 * e.ry3rz - 6 * e.a2 * e.ryrz - e.a3 * e.rx * e.sa - 8 * e.ca * e.ry3rz + e.a4 * e.ca *
    e.rx + 6 * e.a2 * e.ca * e.ryrz + 3 * e.a * e.rxry2 * e.sa - 5 * e.a * e.ry3rz * e.sa + 3 * e.a3 * e.ryrz * e.sa - 3 * e.a2 *
    e.ca * e.rxry2 + e.a2 * e.ca * e.ry3rz - e.a3 * e.rxry2 * e.sa) / e.a6) =
      2 * nddE e 1 1 := by
  unfold_names
  expand_derivatives
  field_simp
  ring

theorem node104 (e : Env) (ha : e.a ≠ 0) (hr : e.rx2 + e.ry2 + e.rz2 = e.a2) :
    2 * e.ny * (e.pz * (8 * e.ry2rz2 - e.a4 * e.ca + e.a4 - 2 * e.a2 * e.ry2 - 2 * e.a2 * e.rz2 + 2 * e.a2 * e.ca * e.ry2 + 2 *
    e.a2 * e.ca * e.rz2 + e.a3 * e.ry2 * e.sa + e.a3 * e.rz2 * e.sa - 8 * e.ca * e.ry2rz2 + e.a2 * e.ca * e.ry2rz2 - 5 * e.a *
    e.ry2rz2 * e.sa - 3 * e.a * e.rxryrz * e.sa + 3 * e.a2 * e.ca * e.rxryrz + e.a3 * e.rxryrz * e.sa) / e.a6 - e.px * (2 * e.a2 *
    e.rxrz + e.a3 * e.ry * e.sa - 8 * e.rxry2rz - e.a4 * e.ca * e.ry - 2 * e.a2 * e.ca * e.rxrz - e.a3 * e.rxrz * e.sa - 3 * e.a *
    e.ryrz2 * e.sa + 8 * e.ca * e.rxry2rz + 3 * e.a2 * e.ca * e.ryrz2 + e.a3 * e.ryrz2 * e.sa - e.a2 * e.ca * e.rxry2rz + 5 * e.a
    * e.rxry2rz * e.sa) / e.a6 + e.py * e.ryrz * (4 * e.a2 * e.ca - e.a4 * e.ca + 3 * e.a3 * e.sa - 8 * e.ca * e.ry2 - 4 * e.a2 +
    8 * e.ry2 - 5 * e.a * e.ry2 * e.sa + e.a2 * e.ca * e.ry2) / e.a6) + 2 * e.nz * (e.py * (8 * e.ry2rz2 - e.a4 * e.ca + e.a4 - 2
    * e.a2 * e.ry2 - 2 * e.a2 * e.rz2 + 2 * e.a2 * e.ca * e.ry2 + 2 * e.a2 * e.ca * e.rz2 + e.a3 * e.ry2 * e.sa + e.a3 * e.rz2 *
    e.sa - 8 * e.ca * e.ry2rz2 + e.a2 * e.ca * e.ry2rz2 - 5 * e.a * e.ry2rz2 * e.sa + 3 * e.a * e.rxryrz * e.sa - 3 * e.a2 * e.ca
    * e.rxryrz - e.a3 * e.rxryrz * e.sa) / e.a6 + e.px * (e.a3 * e.rz * e.sa - 2 * e.a2 * e.rxry + 8 * e.rxryrz2 - e.a4 * e.ca *
    e.rz + 2 * e.a2 * e.ca * e.rxry + e.a3 * e.rxry * e.sa - 3 * e.a * e.ry2rz * e.sa - 8 * e.ca * e.rxryrz2 + 3 * e.a2 * e.ca *
    e.ry2rz + e.a3 * e.ry2rz * e.sa + e.a2 * e.ca * e.rxryrz2 - 5 * e.a * e.rxryrz2 * e.sa) / e.a6 + e.pz * e.ryrz * (4 * e.a2 *
    e.ca - e.a4 * e.ca + 3 * e.a3 * e.sa - 8 * e.ca * e.rz2 - 4 * e.a2 + 8 * e.rz2 - 5 * e.a * e.rz2 * e.sa + e.a2 * e.ca * e.rz2)
    / e.a6) + 2 * e.nx * (e.a4 * e.ca * e.pz * e.rz - e.a4 * e.ca * e.py * e.ry + e.a3 * e.py * e.ry * e.sa - e.a3 * e.pz * e.rz *
    e.sa + 8 * e.px * e.rx2ryrz + 8 * e.py * e.rxry2rz + 8 * e.pz * e.rxryrz2 - 2 * e.py * e.rxrz * (e.rx2 + e.ry2 + e.rz2) - 2 *
    e.pz * e.rxry * (e.rx2 + e.ry2 + e.rz2) + e.a3 * e.py * e.ryrz2 * e.sa - e.a3 * e.pz * e.ry2rz * e.sa + 3 * e.ca * e.py *
    e.ryrz2 * (e.rx2 + e.ry2 + e.rz2) - 3 * e.ca * e.pz * e.ry2rz * (e.rx2 + e.ry2 + e.rz2) - e.a4 * e.ca * e.px * e.ryrz + e.a3 *
    e.px * e.ryrz * e.sa + e.a3 * e.py * e.rxrz * e.sa + e.a3 * e.pz * e.rxry * e.sa - 3 * e.a * e.py * e.ryrz2 * e.sa + 3 * e.a *
    e.pz * e.ry2rz * e.sa - 8 * e.ca * e.px * e.rx2ryrz - 8 * e.ca * e.py * e.rxry2rz - 8 * e.ca * e.pz * e.rxryrz2 + 2 * e.ca *
    e.py * e.rxrz * (e.rx2 + e.ry2 + e.rz2) + 2 * e.ca * e.pz * e.rxry * (e.rx2 + e.ry2 + e.rz2) - 5 * e.a * e.px * e.rx2ryrz *
    e.sa - 5 * e.a * e.py * e.rxry2rz * e.sa - 5 * e.a * e.pz * e.rxryrz2 * e.sa + e.ca * e.px * e.rx2ryrz * (e.rx2 + e.ry2 +
    e.rz2) + e.ca * e.py * e.rxry2rz * (e.rx2 + e.ry2 + e.rz2) + e.ca * e.pz * e.rxryrz2 * (e.rx2 + e.ry2 + e.rz2)) / e.a6 =
      2 * nddE e 1 2 := by
  simp only [hr]
  unfold_names
  expand_derivatives
  field_simp
  ring

theorem node105 (e : Env) (ha : e.a ≠ 0) :
    2 * e.ny * (e.px * (e.a2 * e.rx - 2 * e.rxry2 + 2 * e.ca * e.rxry2 - e.a2 * e.ca * e.rx - e.a * e.ryrz * e.sa + e.a2 * e.ca *
    e.ryrz + e.a * e.rxry2 * e.sa) / e.a4 + e.pz * (e.a2 * e.rz - 2 * e.ry2rz + 2 * e.ca * e.ry2rz - e.a2 * e.ca * e.rz + e.a *
    e.rxry * e.sa - e.a2 * e.ca * e.rxry + e.a * e.ry2rz * e.sa) / e.a4 - e.py * e.ry * (e.a2 - e.ry2) * (2 * e.ca + e.a * e.sa -
    2) / e.a4) + 2 * e.nx * (e.py * (e.a2 * e.rx - 2 * e.rxry2 + 2 * e.ca * e.rxry2 - e.a2 * e.ca * e.rx + e.a * e.ryrz * e.sa -
    e.a2 * e.ca * e.ryrz + e.a * e.rxry2 * e.sa) / e.a4 + e.pz * (e.a3 * e.sa - e.a * e.ry2 * e.sa + e.a2 * e.ca * e.ry2 - 2 *
    e.rxryrz + 2 * e.ca * e.rxryrz + e.a * e.rxryrz * e.sa) / e.a4 - e.px * e.ry * (e.a3 * e.sa - 2 * e.ca * e.rx2 + 2 * e.rx2 -
    e.a * e.rx2 * e.sa) / e.a4) - 2 * e.nz * (e.px * (e.a3 * e.sa - e.a * e.ry2 * e.sa + e.a2 * e.ca * e.ry2 + 2 * e.rxryrz - 2 *
    e.ca * e.rxryrz - e.a * e.rxryrz * e.sa) / e.a4 - e.py * (e.a2 * e.rz - 2 * e.ry2rz + 2 * e.ca * e.ry2rz - e.a2 * e.ca * e.rz
    - e.a * e.rxry * e.sa + e.a2 * e.ca * e.rxry + e.a * e.ry2rz * e.sa) / e.a4 + e.pz * e.ry * (e.a3 * e.sa - 2 * e.ca * e.rz2 +
    2 * e.rz2 - e.a * e.rz2 * e.sa) / e.a4) =
      2 * ndE e 1 := by
  unfold_names
  expand_derivatives
  field_simp
  ring

theorem node106 (e : Env) (ha : e.a ≠ 0) (hr : e.rx2 + e.ry2 + e.rz2 = e.a2) :
    2 * e.nz * (e.px * (e.a2 * e.rx - 2 * e.rxrz2 + 2 * e.ca * e.rxrz2 - e.a2 * e.ca * e.rx + e.a * e.ryrz * e.sa - e.a2 * e.ca *
    e.ryrz + e.a * e.rxrz2 * e.sa) / e.a4 + e.py * (e.a2 * e.ry - 2 * e.ryrz2 + 2 * e.ca * e.ryrz2 - e.a2 * e.ca * e.ry - e.a *
    e.rxrz * e.sa + e.a2 * e.ca * e.rxrz + e.a * e.ryrz2 * e.sa) / e.a4 - e.pz * e.rz * (e.a2 - e.rz2) * (2 * e.ca + e.a * e.sa -
    2) / e.a4) + 2 * e.nx * (e.pz * e.rx * (e.rx2 + e.ry2 + e.rz2) - 2 * e.px * e.rx2rz - 2 * e.pz * e.rxrz2 - e.a3 * e.py * e.sa
    - 2 * e.py * e.rxryrz - e.a3 * e.px * e.rz * e.sa + e.a * e.py * e.rz2 * e.sa + 2 * e.ca * e.px * e.rx2rz + 2 * e.ca * e.pz *
    e.rxrz2 - e.ca * e.pz * e.rx * (e.rx2 + e.ry2 + e.rz2) - e.ca * e.py * e.rz2 * (e.rx2 + e.ry2 + e.rz2) - e.a * e.pz * e.ryrz *
    e.sa + 2 * e.ca * e.py * e.rxryrz + e.a * e.px * e.rx2rz * e.sa + e.a * e.pz * e.rxrz2 * e.sa + e.ca * e.pz * e.ryrz * (e.rx2
    + e.ry2 + e.rz2) + e.a * e.py * e.rxryrz * e.sa) / e.a4 + 2 * e.ny * (e.a3 * e.px * e.sa - 2 * e.py * e.ry2rz - 2 * e.pz *
    e.ryrz2 + e.pz * e.ry * (e.rx2 + e.ry2 + e.rz2) - 2 * e.px * e.rxryrz - e.a * e.px * e.rz2 * e.sa - e.a3 * e.py * e.rz * e.sa
    + 2 * e.ca * e.py * e.ry2rz + 2 * e.ca * e.pz * e.ryrz2 - e.ca * e.pz * e.ry * (e.rx2 + e.ry2 + e.rz2) + e.ca * e.px * e.rz2 *
    (e.rx2 + e.ry2 + e.rz2) + e.a * e.pz * e.rxrz * e.sa + 2 * e.ca * e.px * e.rxryrz + e.a * e.py * e.ry2rz * e.sa + e.a * e.pz *
    e.ryrz2 * e.sa - e.ca * e.pz * e.rxrz * (e.rx2 + e.ry2 + e.rz2) + e.a * e.px * e.rxryrz * e.sa) / e.a4 =
      2 * ndE e 2 := by
  simp only [hr]
  unfold_names
  expand_derivatives
  field_simp
  ring

theorem node107 (e : Env) (ha : e.a ≠ 0) :
    2 * e.nz * (e.px * (8 * e.rxrz3 - 6 * e.a2 * e.rxrz + e.a3 * e.ry * e.sa - 8 * e.ca * e.rxrz3 - e.a4 * e.ca * e.ry + 6 * e.a2
    * e.ca * e.rxrz - 5 * e.a * e.rxrz3 * e.sa + 3 * e.a3 * e.rxrz * e.sa - 3 * e.a * e.ryrz2 * e.sa + e.a2 * e.ca * e.rxrz3 + 3 *
    e.a2 * e.ca * e.ryrz2 + e.a3 * e.ryrz2 * e.sa) / e.a6 + e.py * (8 * e.ryrz3 - 6 * e.a2 * e.ryrz - e.a3 * e.rx * e.sa - 8 *
    e.ca * e.ryrz3 + e.a4 * e.ca * e.rx + 6 * e.a2 * e.ca * e.ryrz + 3 * e.a * e.rxrz2 * e.sa - 5 * e.a * e.ryrz3 * e.sa + 3 *
    e.a3 * e.ryrz * e.sa - 3 * e.a2 * e.ca * e.rxrz2 + e.a2 * e.ca * e.ryrz3 - e.a3 * e.rxrz2 * e.sa) / e.a6 - e.pz * (e.a2 -
    e.rz2) * (2 * e.a2 * e.ca + e.a3 * e.sa - 8 * e.ca * e.rz2 - 2 * e.a2 + 8 * e.rz2 - 5 * e.a * e.rz2 * e.sa + e.a2 * e.ca *
    e.rz2) / e.a6) + 2 * e.nx * (e.py * (3 * e.a3 * e.rz * e.sa - 3 * e.a * e.rz3 * e.sa - 2 * e.a2 * e.rxry + 8 * e.rxryrz2 + 3 *
    e.a2 * e.ca * e.rz3 + e.a3 * e.rz3 * e.sa - 3 * e.a4 * e.ca * e.rz + 2 * e.a2 * e.ca * e.rxry + e.a3 * e.rxry * e.sa - 8 *
    e.ca * e.rxryrz2 + e.a2 * e.ca * e.rxryrz2 - 5 * e.a * e.rxryrz2 * e.sa) / e.a6 + e.px * (8 * e.rx2rz2 - e.a5 * e.sa - 2 *
    e.a2 * e.rx2 + 2 * e.a2 * e.ca * e.rx2 - e.a4 * e.ca * e.rz2 + e.a3 * e.rx2 * e.sa + e.a3 * e.rz2 * e.sa - 8 * e.ca * e.rx2rz2
    + e.a2 * e.ca * e.rx2rz2 - 5 * e.a * e.rx2rz2 * e.sa) / e.a6 + e.pz * (8 * e.rxrz3 - 6 * e.a2 * e.rxrz - e.a3 * e.ry * e.sa -
    8 * e.ca * e.rxrz3 + e.a4 * e.ca * e.ry + 6 * e.a2 * e.ca * e.rxrz - 5 * e.a * e.rxrz3 * e.sa + 3 * e.a3 * e.rxrz * e.sa + 3 *
    e.a * e.ryrz2 * e.sa + e.a2 * e.ca * e.rxrz3 - 3 * e.a2 * e.ca * e.ryrz2 - e.a3 * e.ryrz2 * e.sa) / e.a6) + 2 * e.ny * (e.py *
    (8 * e.ry2rz2 - e.a5 * e.sa - 2 * e.a2 * e.ry2 + 2 * e.a2 * e.ca * e.ry2 - e.a4 * e.ca * e.rz2 + e.a3 * e.ry2 * e.sa + e.a3 *
    e.rz2 * e.sa - 8 * e.ca * e.ry2rz2 + e.a2 * e.ca * e.ry2rz2 - 5 * e.a * e.ry2rz2 * e.sa) / e.a6 - e.px * (2 * e.a2 * e.rxry -
    3 * e.a * e.rz3 * e.sa + 3 * e.a3 * e.rz * e.sa - 8 * e.rxryrz2 + 3 * e.a2 * e.ca * e.rz3 + e.a3 * e.rz3 * e.sa - 3 * e.a4 *
    e.ca * e.rz - 2 * e.a2 * e.ca * e.rxry - e.a3 * e.rxry * e.sa + 8 * e.ca * e.rxryrz2 - e.a2 * e.ca * e.rxryrz2 + 5 * e.a *
    e.rxryrz2 * e.sa) / e.a6 + e.pz * (8 * e.ryrz3 - 6 * e.a2 * e.ryrz + e.a3 * e.rx * e.sa - 8 * e.ca * e.ryrz3 - e.a4 * e.ca *
    e.rx + 6 * e.a2 * e.ca * e.ryrz - 3 * e.a * e.rxrz2 * e.sa - 5 * e.a * e.ryrz3 * e.sa + 3 * e.a3 * e.ryrz * e.sa + 3 * e.a2 *
    e.ca * e.rxrz2 + e.a2 * e.ca * e.ryrz3 + e.a3 * e.rxrz2 * e.sa) / e.a6) =
      2 * nddE e 2 2 := by
  unfold_names
  expand_derivatives
  field_simp
  ring

theorem node108 (e : Env) (ha : e.a ≠ 0) :
    2 * e.nz * (e.px * (e.a2 * e.rx - 2 * e.rxrz2 + 2 * e.ca * e.rxrz2 - e.a2 * e.ca * e.rx + e.a * e.ryrz * e.sa - e.a2 * e.ca *
    e.ryrz + e.a * e.rxrz2 * e.sa) / e.a4 + e.py * (e.a2 * e.ry - 2 * e.ryrz2 + 2 * e.ca * e.ryrz2 - e.a2 * e.ca * e.ry - e.a *
    e.rxrz * e.sa + e.a2 * e.ca * e.rxrz + e.a * e.ryrz2 * e.sa) / e.a4 - e.pz * e.rz * (e.a2 - e.rz2) * (2 * e.ca + e.a * e.sa -
    2) / e.a4) - 2 * e.nx * (e.py * (e.a3 * e.sa - e.a * e.rz2 * e.sa + e.a2 * e.ca * e.rz2 + 2 * e.rxryrz - 2 * e.ca * e.rxryrz -
    e.a * e.rxryrz * e.sa) / e.a4 - e.pz * (e.a2 * e.rx - 2 * e.rxrz2 + 2 * e.ca * e.rxrz2 - e.a2 * e.ca * e.rx - e.a * e.ryrz *
    e.sa + e.a2 * e.ca * e.ryrz + e.a * e.rxrz2 * e.sa) / e.a4 + e.px * e.rz * (e.a3 * e.sa - 2 * e.ca * e.rx2 + 2 * e.rx2 - e.a *
    e.rx2 * e.sa) / e.a4) + 2 * e.ny * (e.pz * (e.a2 * e.ry - 2 * e.ryrz2 + 2 * e.ca * e.ryrz2 - e.a2 * e.ca * e.ry + e.a * e.rxrz
    * e.sa - e.a2 * e.ca * e.rxrz + e.a * e.ryrz2 * e.sa) / e.a4 + e.px * (e.a3 * e.sa - e.a * e.rz2 * e.sa + e.a2 * e.ca * e.rz2
    - 2 * e.rxryrz + 2 * e.ca * e.rxryrz + e.a * e.rxryrz * e.sa) / e.a4 - e.py * e.rz * (e.a3 * e.sa - 2 * e.ca * e.ry2 + 2 *
    e.ry2 - e.a * e.ry2 * e.sa) / e.a4) =
      2 * ndE e 2 := by
  unfold_names
  expand_derivatives
  field_simp
  ring

theorem node109 (e : Env) (ha : e.a ≠ 0) :
    2 * e.ny * (e.a2 * e.ry - 2 * e.rx2ry + 2 * e.ca * e.rx2ry - e.a2 * e.ca * e.ry - e.a * e.rxrz * e.sa + e.a2 * e.ca * e.rxrz +
    e.a * e.rx2ry * e.sa) / e.a4 + 2 * e.nz * (e.a2 * e.rz - 2 * e.rx2rz + 2 * e.ca * e.rx2rz - e.a2 * e.ca * e.rz + e.a * e.rxry
    * e.sa - e.a2 * e.ca * e.rxry + e.a * e.rx2rz * e.sa) / e.a4 - 2 * e.nx * e.rx * (e.a2 - e.rx2) * (2 * e.ca + e.a * e.sa - 2)
    / e.a4 =
      2 * ndR e 0 0 := by
  unfold_names
  expand_derivatives
  field_simp
  ring

theorem node110 (e : Env) (ha : e.a ≠ 0) :
    e.ny * (e.rxry + e.a * e.rz * e.sa - e.ca * e.rxry) / e.a2 - e.nz * (e.a * e.ry * e.sa - e.rxrz + e.ca * e.rxrz) / e.a2 + e.nx
    * (e.a2 * e.ca - e.ca * e.rx2 + e.rx2) / e.a2 =
      nR e 0 := by
  unfold_names
  expand_derivatives
  field_simp
  ring

theorem node111 (e : Env) (ha : e.a ≠ 0) :
    2 * e.nx * (e.a2 * e.ry - 2 * e.rx2ry + 2 * e.ca * e.rx2ry - e.a2 * e.ca * e.ry + e.a * e.rxrz * e.sa - e.a2 * e.ca * e.rxrz +
    e.a * e.rx2ry * e.sa) / e.a4 + 2 * e.nz * (e.a3 * e.sa - e.a * e.rx2 * e.sa + e.a2 * e.ca * e.rx2 - 2 * e.rxryrz + 2 * e.ca *
    e.rxryrz + e.a * e.rxryrz * e.sa) / e.a4 - 2 * e.ny * e.rx * (e.a3 * e.sa - 2 * e.ca * e.ry2 + 2 * e.ry2 - e.a * e.ry2 * e.sa)
    / e.a4 =
      2 * ndR e 0 1 := by
  unfold_names
  expand_derivatives
  field_simp
  ring

theorem node112 (e : Env) (ha : e.a ≠ 0) :
    e.nz * (e.ryrz + e.a * e.rx * e.sa - e.ca * e.ryrz) / e.a2 - e.nx * (e.a * e.rz * e.sa - e.rxry + e.ca * e.rxry) / e.a2 + e.ny
    * (e.a2 * e.ca - e.ca * e.ry2 + e.ry2) / e.a2 =
      nR e 1 := by
  unfold_names
  expand_derivatives
  field_simp
  ring

theorem node113 (e : Env) (ha : e.a ≠ 0) :
    2 * e.ny * (e.a3 * e.sa - e.a * e.rx2 * e.sa + e.a2 * e.ca * e.rx2 + 2 * e.rxryrz - 2 * e.ca * e.rxryrz - e.a * e.rxryrz *
    e.sa) / e.a4 - 2 * e.nx * (e.a2 * e.rz - 2 * e.rx2rz + 2 * e.ca * e.rx2rz - e.a2 * e.ca * e.rz - e.a * e.rxry * e.sa + e.a2 *
    e.ca * e.rxry + e.a * e.rx2rz * e.sa) / e.a4 + 2 * e.nz * e.rx * (e.a3 * e.sa - 2 * e.ca * e.rz2 + 2 * e.rz2 - e.a * e.rz2 *
    e.sa) / e.a4 =
      (-2) * ndR e 0 2 := by
  unfold_names
  expand_derivatives
  field_simp
  ring

theorem node114 (e : Env) (ha : e.a ≠ 0) :
    e.nx * (e.rxrz + e.a * e.ry * e.sa - e.ca * e.rxrz) / e.a2 - e.ny * (e.a * e.rx * e.sa - e.ryrz + e.ca * e.ryrz) / e.a2 + e.nz
    * (e.a2 * e.ca - e.ca * e.rz2 + e.rz2) / e.a2 =
      nR e 2 := by
  unfold_names
  expand_derivatives
  field_simp
  ring

theorem node115 (e : Env) (ha : e.a ≠ 0) :
    2 * e.nz * (e.a3 * e.sa - e.a * e.ry2 * e.sa + e.a2 * e.ca * e.ry2 + 2 * e.rxryrz - 2 * e.ca * e.rxryrz - e.a * e.rxryrz *
    e.sa) / e.a4 - 2 * e.ny * (e.a2 * e.rx - 2 * e.rxry2 + 2 * e.ca * e.rxry2 - e.a2 * e.ca * e.rx - e.a * e.ryrz * e.sa + e.a2 *
    e.ca * e.ryrz + e.a * e.rxry2 * e.sa) / e.a4 + 2 * e.nx * e.ry * (e.a3 * e.sa - 2 * e.ca * e.rx2 + 2 * e.rx2 - e.a * e.rx2 *
    e.sa) / e.a4 =
      (-2) * ndR e 1 0 := by
  unfold_names
  expand_derivatives
  field_simp
  ring

theorem node116 (e : Env) (ha : e.a ≠ 0) :
    2 * e.nx * (e.a2 * e.rx - 2 * e.rxry2 + 2 * e.ca * e.rxry2 - e.a2 * e.ca * e.rx + e.a * e.ryrz * e.sa - e.a2 * e.ca * e.ryrz +
    e.a * e.rxry2 * e.sa) / e.a4 + 2 * e.nz * (e.a2 * e.rz - 2 * e.ry2rz + 2 * e.ca * e.ry2rz - e.a2 * e.ca * e.rz - e.a * e.rxry
    * e.sa + e.a2 * e.ca * e.rxry + e.a * e.ry2rz * e.sa) / e.a4 - 2 * e.ny * e.ry * (e.a2 - e.ry2) * (2 * e.ca + e.a * e.sa - 2)
    / e.a4 =
      2 * ndR e 1 1 := by
  unfold_names
  expand_derivatives
  field_simp
  ring

theorem node117 (e : Env) (ha : e.a ≠ 0) :
    2 * e.ny * (e.a2 * e.rz - 2 * e.ry2rz + 2 * e.ca * e.ry2rz - e.a2 * e.ca * e.rz + e.a * e.rxry * e.sa - e.a2 * e.ca * e.rxry +
    e.a * e.ry2rz * e.sa) / e.a4 + 2 * e.nx * (e.a3 * e.sa - e.a * e.ry2 * e.sa + e.a2 * e.ca * e.ry2 - 2 * e.rxryrz + 2 * e.ca *
    e.rxryrz + e.a * e.rxryrz * e.sa) / e.a4 - 2 * e.nz * e.ry * (e.a3 * e.sa - 2 * e.ca * e.rz2 + 2 * e.rz2 - e.a * e.rz2 * e.sa)
    / e.a4 =
      2 * ndR e 1 2 := by
  unfold_names
  expand_derivatives
  field_simp
  ring

theorem node118 (e : Env) (ha : e.a ≠ 0) :
    2 * e.nz * (e.a2 * e.rx - 2 * e.rxrz2 + 2 * e.ca * e.rxrz2 - e.a2 * e.ca * e.rx + e.a * e.ryrz * e.sa - e.a2 * e.ca * e.ryrz +
    e.a * e.rxrz2 * e.sa) / e.a4 + 2 * e.ny * (e.a3 * e.sa - e.a * e.rz2 * e.sa + e.a2 * e.ca * e.rz2 - 2 * e.rxryrz + 2 * e.ca *
    e.rxryrz + e.a * e.rxryrz * e.sa) / e.a4 - 2 * e.nx * e.rz * (e.a3 * e.sa - 2 * e.ca * e.rx2 + 2 * e.rx2 - e.a * e.rx2 * e.sa)
    / e.a4 =
      2 * ndR e 2 0 := by
  unfold_names
  expand_derivatives
  field_simp
  ring

theorem node119 (e : Env) (ha : e.a ≠ 0) :
    2 * e.nx * (e.a3 * e.sa - e.a * e.rz2 * e.sa + e.a2 * e.ca * e.rz2 + 2 * e.rxryrz - 2 * e.ca * e.rxryrz - e.a * e.rxryrz *
    e.sa) / e.a4 - 2 * e.nz * (e.a2 * e.ry - 2 * e.ryrz2 + 2 * e.ca * e.ryrz2 - e.a2 * e.ca * e.ry - e.a * e.rxrz * e.sa + e.a2 *
    e.ca * e.rxrz + e.a * e.ryrz2 * e.sa) / e.a4 + 2 * e.ny * e.rz * (e.a3 * e.sa - 2 * e.ca * e.ry2 + 2 * e.ry2 - e.a * e.ry2 *
    e.sa) / e.a4 =
      (-2) * ndR e 2 1 := by
  unfold_names
  expand_derivatives
  field_simp
  ring

theorem node120 (e : Env) (ha : e.a ≠ 0) :
    2 * e.nx * (e.a2 * e.rx - 2 * e.rxrz2 + 2 * e.ca * e.rxrz2 - e.a2 * e.ca * e.rx - e.a * e.ryrz * e.sa + e.a2 * e.ca * e.ryrz +
    e.a * e.rxrz2 * e.sa) / e.a4 + 2 * e.ny * (e.a2 * e.ry - 2 * e.ryrz2 + 2 * e.ca * e.ryrz2 - e.a2 * e.ca * e.ry + e.a * e.rxrz
    * e.sa - e.a2 * e.ca * e.rxrz + e.a * e.ryrz2 * e.sa) / e.a4 - 2 * e.nz * e.rz * (e.a2 - e.rz2) * (2 * e.ca + e.a * e.sa - 2)
    / e.a4 =
      2 * ndR e 2 2 := by
  unfold_names
  expand_derivatives
  field_simp
  ring

theorem node121 (e : Env) (ha : e.a ≠ 0) :
    e.nx * (e.ca - e.rx2 * e.cam1 / e.a2) + e.ny * (e.rz * e.sa / e.a - e.rxry * e.cam1 / e.a2) - e.nz * (e.ry * e.sa / e.a +
    e.rxrz * e.cam1 / e.a2) =
      nR e 0 := by
  unfold_names
  expand_derivatives
  field_simp
  ring

theorem node122 (e : Env) (ha : e.a ≠ 0) :
    e.ny * (e.ca - e.ry2 * e.cam1 / e.a2) - e.nx * (e.rz * e.sa / e.a + e.rxry * e.cam1 / e.a2) + e.nz * (e.rx * e.sa / e.a -
    e.ryrz * e.cam1 / e.a2) =
      nR e 1 := by
  unfold_names
  expand_derivatives
  field_simp
  ring

theorem node123 (e : Env) (ha : e.a ≠ 0) :
    e.nz * (e.ca - e.rz2 * e.cam1 / e.a2) + e.nx * (e.ry * e.sa / e.a - e.rxrz * e.cam1 / e.a2) - e.ny * (e.rx * e.sa / e.a +
    e.ryrz * e.cam1 / e.a2) =
      nR e 2 := by
  unfold_names
  expand_derivatives
  field_simp
  ring

end Icp

end Serpent
