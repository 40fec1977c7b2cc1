import Verif.Model.IcpEnv

/-!
# Model of `PointToPlaneIcpNonlinearModel::compute_half_d2F_dzdx`

covariance-inl.hpp:3334-4080, one definition for each entry of the matrix.
-/

namespace Serpent

namespace Lidar

namespace PlaneDzdx

open Matrix EigenExt

/-- Entry (0, 0), covariance-inl.hpp:3401-3447. -/
noncomputable def e00 (e : Env) : ℝ :=
  (2 * e.ny * (e.a2 * e.ry - 2 * e.rx2ry + 2 * e.ca * e.rx2ry - e.a2 * e.ca * e.ry - e.a * e.rxrz * e.sa + e.a2 * e.ca * e.rxrz +
  e.a * e.rx2ry * e.sa) / e.a4 + 2 * e.nz * (e.a2 * e.rz - 2 * e.rx2rz + 2 * e.ca * e.rx2rz - e.a2 * e.ca * e.rz + e.a * e.rxry *
  e.sa - e.a2 * e.ca * e.rxry + e.a * e.rx2rz * e.sa) / e.a4 - 2 * e.nx * e.rx * (e.a2 - e.rx2) * (2 * e.ca + e.a * e.sa - 2) /
  e.a4) * (e.nx * (e.a2 * e.tx - e.a2 * e.qx + e.px * e.rx2 - e.ca * e.px * e.rx2 + e.py * e.rxry + e.pz * e.rxrz + e.a2 * e.ca *
  e.px - e.a * e.py * e.rz * e.sa + e.a * e.pz * e.ry * e.sa - e.ca * e.py * e.rxry - e.ca * e.pz * e.rxrz) / e.a2 + e.ny * (e.a2
  * e.ty - e.a2 * e.qy + e.py * e.ry2 - e.ca * e.py * e.ry2 + e.px * e.rxry + e.pz * e.ryrz + e.a2 * e.ca * e.py + e.a * e.px *
  e.rz * e.sa - e.a * e.pz * e.rx * e.sa - e.ca * e.px * e.rxry - e.ca * e.pz * e.ryrz) / e.a2 + e.nz * (e.a2 * e.tz - e.a2 * e.qz
  + e.pz * e.rz2 - e.ca * e.pz * e.rz2 + e.px * e.rxrz + e.py * e.ryrz + e.a2 * e.ca * e.pz - e.a * e.px * e.ry * e.sa + e.a *
  e.py * e.rx * e.sa - e.ca * e.px * e.rxrz - e.ca * e.py * e.ryrz) / e.a2) / 2 + (e.ny * (e.rxry + e.a * e.rz * e.sa - e.ca *
  e.rxry) / e.a2 - e.nz * (e.a * e.ry * e.sa - e.rxrz + e.ca * e.rxrz) / e.a2 + e.nx * (e.a2 * e.ca - e.ca * e.rx2 + e.rx2) /
  e.a2) * (2 * e.nx * (e.py * (e.a2 * e.ry - 2 * e.rx2ry + 2 * e.ca * e.rx2ry - e.a2 * e.ca * e.ry + e.a * e.rxrz * e.sa - e.a2 *
  e.ca * e.rxrz + e.a * e.rx2ry * e.sa) / e.a4 + e.pz * (e.a2 * e.rz - 2 * e.rx2rz + 2 * e.ca * e.rx2rz - e.a2 * e.ca * e.rz - e.a
  * e.rxry * e.sa + e.a2 * e.ca * e.rxry + e.a * e.rx2rz * e.sa) / e.a4 - e.px * e.rx * (e.a2 - e.rx2) * (2 * e.ca + e.a * e.sa -
  2) / e.a4) - 2 * e.ny * (e.pz * (e.a3 * e.sa - e.a * e.rx2 * e.sa + e.a2 * e.ca * e.rx2 + 2 * e.rxryrz - 2 * e.ca * e.rxryrz -
  e.a * e.rxryrz * e.sa) / e.a4 - e.px * (e.a2 * e.ry - 2 * e.rx2ry + 2 * e.ca * e.rx2ry - e.a2 * e.ca * e.ry - e.a * e.rxrz *
  e.sa + e.a2 * e.ca * e.rxrz + e.a * e.rx2ry * e.sa) / e.a4 + e.py * e.rx * (e.a3 * e.sa - 2 * e.ca * e.ry2 + 2 * e.ry2 - e.a *
  e.ry2 * e.sa) / e.a4) + 2 * e.nz * (e.px * (e.a2 * e.rz - 2 * e.rx2rz + 2 * e.ca * e.rx2rz - e.a2 * e.ca * e.rz + e.a * e.rxry *
  e.sa - e.a2 * e.ca * e.rxry + e.a * e.rx2rz * e.sa) / e.a4 + e.py * (e.a3 * e.sa - e.a * e.rx2 * e.sa + e.a2 * e.ca * e.rx2 - 2
  * e.rxryrz + 2 * e.ca * e.rxryrz + e.a * e.rxryrz * e.sa) / e.a4 - e.pz * e.rx * (e.a3 * e.sa - 2 * e.ca * e.rz2 + 2 * e.rz2 -
  e.a * e.rz2 * e.sa) / e.a4)) / 2

/-- Entry (0, 1), covariance-inl.hpp:3448-3494. -/
noncomputable def e01 (e : Env) : ℝ :=
  (e.nz * (e.ryrz + e.a * e.rx * e.sa - e.ca * e.ryrz) / e.a2 - e.nx * (e.a * e.rz * e.sa - e.rxry + e.ca * e.rxry) / e.a2 + e.ny
  * (e.a2 * e.ca - e.ca * e.ry2 + e.ry2) / e.a2) * (2 * e.nx * (e.py * (e.a2 * e.ry - 2 * e.rx2ry + 2 * e.ca * e.rx2ry - e.a2 *
  e.ca * e.ry + e.a * e.rxrz * e.sa - e.a2 * e.ca * e.rxrz + e.a * e.rx2ry * e.sa) / e.a4 + e.pz * (e.a2 * e.rz - 2 * e.rx2rz + 2
  * e.ca * e.rx2rz - e.a2 * e.ca * e.rz - e.a * e.rxry * e.sa + e.a2 * e.ca * e.rxry + e.a * e.rx2rz * e.sa) / e.a4 - e.px * e.rx
  * (e.a2 - e.rx2) * (2 * e.ca + e.a * e.sa - 2) / e.a4) - 2 * e.ny * (e.pz * (e.a3 * e.sa - e.a * e.rx2 * e.sa + e.a2 * e.ca *
  e.rx2 + 2 * e.rxryrz - 2 * e.ca * e.rxryrz - e.a * e.rxryrz * e.sa) / e.a4 - e.px * (e.a2 * e.ry - 2 * e.rx2ry + 2 * e.ca *
  e.rx2ry - e.a2 * e.ca * e.ry - e.a * e.rxrz * e.sa + e.a2 * e.ca * e.rxrz + e.a * e.rx2ry * e.sa) / e.a4 + e.py * e.rx * (e.a3 *
  e.sa - 2 * e.ca * e.ry2 + 2 * e.ry2 - e.a * e.ry2 * e.sa) / e.a4) + 2 * e.nz * (e.px * (e.a2 * e.rz - 2 * e.rx2rz + 2 * e.ca *
  e.rx2rz - e.a2 * e.ca * e.rz + e.a * e.rxry * e.sa - e.a2 * e.ca * e.rxry + e.a * e.rx2rz * e.sa) / e.a4 + e.py * (e.a3 * e.sa -
  e.a * e.rx2 * e.sa + e.a2 * e.ca * e.rx2 - 2 * e.rxryrz + 2 * e.ca * e.rxryrz + e.a * e.rxryrz * e.sa) / e.a4 - e.pz * e.rx *
  (e.a3 * e.sa - 2 * e.ca * e.rz2 + 2 * e.rz2 - e.a * e.rz2 * e.sa) / e.a4)) / 2 + (2 * e.nx * (e.a2 * e.ry - 2 * e.rx2ry + 2 *
  e.ca * e.rx2ry - e.a2 * e.ca * e.ry + e.a * e.rxrz * e.sa - e.a2 * e.ca * e.rxrz + e.a * e.rx2ry * e.sa) / e.a4 + 2 * e.nz *
  (e.a3 * e.sa - e.a * e.rx2 * e.sa + e.a2 * e.ca * e.rx2 - 2 * e.rxryrz + 2 * e.ca * e.rxryrz + e.a * e.rxryrz * e.sa) / e.a4 - 2
  * e.ny * e.rx * (e.a3 * e.sa - 2 * e.ca * e.ry2 + 2 * e.ry2 - e.a * e.ry2 * e.sa) / e.a4) * (e.nx * (e.a2 * e.tx - e.a2 * e.qx +
  e.px * e.rx2 - e.ca * e.px * e.rx2 + e.py * e.rxry + e.pz * e.rxrz + e.a2 * e.ca * e.px - e.a * e.py * e.rz * e.sa + e.a * e.pz
  * e.ry * e.sa - e.ca * e.py * e.rxry - e.ca * e.pz * e.rxrz) / e.a2 + e.ny * (e.a2 * e.ty - e.a2 * e.qy + e.py * e.ry2 - e.ca *
  e.py * e.ry2 + e.px * e.rxry + e.pz * e.ryrz + e.a2 * e.ca * e.py + e.a * e.px * e.rz * e.sa - e.a * e.pz * e.rx * e.sa - e.ca *
  e.px * e.rxry - e.ca * e.pz * e.ryrz) / e.a2 + e.nz * (e.a2 * e.tz - e.a2 * e.qz + e.pz * e.rz2 - e.ca * e.pz * e.rz2 + e.px *
  e.rxrz + e.py * e.ryrz + e.a2 * e.ca * e.pz - e.a * e.px * e.ry * e.sa + e.a * e.py * e.rx * e.sa - e.ca * e.px * e.rxrz - e.ca
  * e.py * e.ryrz) / e.a2) / 2

/-- Entry (0, 2), covariance-inl.hpp:3495-3539. -/
noncomputable def e02 (e : Env) : ℝ :=
  (e.nx * (e.rxrz + e.a * e.ry * e.sa - e.ca * e.rxrz) / e.a2 - e.ny * (e.a * e.rx * e.sa - e.ryrz + e.ca * e.ryrz) / e.a2 + e.nz
  * (e.a2 * e.ca - e.ca * e.rz2 + e.rz2) / e.a2) * (2 * e.nx * (e.py * (e.a2 * e.ry - 2 * e.rx2ry + 2 * e.ca * e.rx2ry - e.a2 *
  e.ca * e.ry + e.a * e.rxrz * e.sa - e.a2 * e.ca * e.rxrz + e.a * e.rx2ry * e.sa) / e.a4 + e.pz * (e.a2 * e.rz - 2 * e.rx2rz + 2
  * e.ca * e.rx2rz - e.a2 * e.ca * e.rz - e.a * e.rxry * e.sa + e.a2 * e.ca * e.rxry + e.a * e.rx2rz * e.sa) / e.a4 - e.px * e.rx
  * (e.a2 - e.rx2) * (2 * e.ca + e.a * e.sa - 2) / e.a4) - 2 * e.ny * (e.pz * (e.a3 * e.sa - e.a * e.rx2 * e.sa + e.a2 * e.ca *
  e.rx2 + 2 * e.rxryrz - 2 * e.ca * e.rxryrz - e.a * e.rxryrz * e.sa) / e.a4 - e.px * (e.a2 * e.ry - 2 * e.rx2ry + 2 * e.ca *
  e.rx2ry - e.a2 * e.ca * e.ry - e.a * e.rxrz * e.sa + e.a2 * e.ca * e.rxrz + e.a * e.rx2ry * e.sa) / e.a4 + e.py * e.rx * (e.a3 *
  e.sa - 2 * e.ca * e.ry2 + 2 * e.ry2 - e.a * e.ry2 * e.sa) / e.a4) + 2 * e.nz * (e.px * (e.a2 * e.rz - 2 * e.rx2rz + 2 * e.ca *
  e.rx2rz - e.a2 * e.ca * e.rz + e.a * e.rxry * e.sa - e.a2 * e.ca * e.rxry + e.a * e.rx2rz * e.sa) / e.a4 + e.py * (e.a3 * e.sa -
  e.a * e.rx2 * e.sa + e.a2 * e.ca * e.rx2 - 2 * e.rxryrz + 2 * e.ca * e.rxryrz + e.a * e.rxryrz * e.sa) / e.a4 - e.pz * e.rx *
  (e.a3 * e.sa - 2 * e.ca * e.rz2 + 2 * e.rz2 - e.a * e.rz2 * e.sa) / e.a4)) / 2 - (2 * e.ny * (e.a3 * e.sa - e.a * e.rx2 * e.sa +
  e.a2 * e.ca * e.rx2 + 2 * e.rxryrz - 2 * e.ca * e.rxryrz - e.a * e.rxryrz * e.sa) / e.a4 - 2 * e.nx * (e.a2 * e.rz - 2 * e.rx2rz
  + 2 * e.ca * e.rx2rz - e.a2 * e.ca * e.rz - e.a * e.rxry * e.sa + e.a2 * e.ca * e.rxry + e.a * e.rx2rz * e.sa) / e.a4 + 2 * e.nz
  * e.rx * (e.a3 * e.sa - 2 * e.ca * e.rz2 + 2 * e.rz2 - e.a * e.rz2 * e.sa) / e.a4) * (e.nx * (e.a2 * e.tx - e.a2 * e.qx + e.px *
  e.rx2 - e.ca * e.px * e.rx2 + e.py * e.rxry + e.pz * e.rxrz + e.a2 * e.ca * e.px - e.a * e.py * e.rz * e.sa + e.a * e.pz * e.ry
  * e.sa - e.ca * e.py * e.rxry - e.ca * e.pz * e.rxrz) / e.a2 + e.ny * (e.a2 * e.ty - e.a2 * e.qy + e.py * e.ry2 - e.ca * e.py *
  e.ry2 + e.px * e.rxry + e.pz * e.ryrz + e.a2 * e.ca * e.py + e.a * e.px * e.rz * e.sa - e.a * e.pz * e.rx * e.sa - e.ca * e.px *
  e.rxry - e.ca * e.pz * e.ryrz) / e.a2 + e.nz * (e.a2 * e.tz - e.a2 * e.qz + e.pz * e.rz2 - e.ca * e.pz * e.rz2 + e.px * e.rxrz +
  e.py * e.ryrz + e.a2 * e.ca * e.pz - e.a * e.px * e.ry * e.sa + e.a * e.py * e.rx * e.sa - e.ca * e.px * e.rxrz - e.ca * e.py *
  e.ryrz) / e.a2) / 2

/-- Entry (0, 3), covariance-inl.hpp:3540-3565. -/
noncomputable def e03 (e : Env) : ℝ :=
  -(e.nx * (2 * e.nx * (e.py * (e.a2 * e.ry - 2 * e.rx2ry + 2 * e.ca * e.rx2ry - e.a2 * e.ca * e.ry + e.a * e.rxrz * e.sa - e.a2 *
  e.ca * e.rxrz + e.a * e.rx2ry * e.sa) / e.a4 + e.pz * (e.a2 * e.rz - 2 * e.rx2rz + 2 * e.ca * e.rx2rz - e.a2 * e.ca * e.rz - e.a
  * e.rxry * e.sa + e.a2 * e.ca * e.rxry + e.a * e.rx2rz * e.sa) / e.a4 - e.px * e.rx * (e.a2 - e.rx2) * (2 * e.ca + e.a * e.sa -
  2) / e.a4) - 2 * e.ny * (e.pz * (e.a3 * e.sa - e.a * e.rx2 * e.sa + e.a2 * e.ca * e.rx2 + 2 * e.rxryrz - 2 * e.ca * e.rxryrz -
  e.a * e.rxryrz * e.sa) / e.a4 - e.px * (e.a2 * e.ry - 2 * e.rx2ry + 2 * e.ca * e.rx2ry - e.a2 * e.ca * e.ry - e.a * e.rxrz *
  e.sa + e.a2 * e.ca * e.rxrz + e.a * e.rx2ry * e.sa) / e.a4 + e.py * e.rx * (e.a3 * e.sa - 2 * e.ca * e.ry2 + 2 * e.ry2 - e.a *
  e.ry2 * e.sa) / e.a4) + 2 * e.nz * (e.px * (e.a2 * e.rz - 2 * e.rx2rz + 2 * e.ca * e.rx2rz - e.a2 * e.ca * e.rz + e.a * e.rxry *
  e.sa - e.a2 * e.ca * e.rxry + e.a * e.rx2rz * e.sa) / e.a4 + e.py * (e.a3 * e.sa - e.a * e.rx2 * e.sa + e.a2 * e.ca * e.rx2 - 2
  * e.rxryrz + 2 * e.ca * e.rxryrz + e.a * e.rxryrz * e.sa) / e.a4 - e.pz * e.rx * (e.a3 * e.sa - 2 * e.ca * e.rz2 + 2 * e.rz2 -
  e.a * e.rz2 * e.sa) / e.a4))) / 2

/-- Entry (0, 4), covariance-inl.hpp:3566-3591. -/
noncomputable def e04 (e : Env) : ℝ :=
  -(e.ny * (2 * e.nx * (e.py * (e.a2 * e.ry - 2 * e.rx2ry + 2 * e.ca * e.rx2ry - e.a2 * e.ca * e.ry + e.a * e.rxrz * e.sa - e.a2 *
  e.ca * e.rxrz + e.a * e.rx2ry * e.sa) / e.a4 + e.pz * (e.a2 * e.rz - 2 * e.rx2rz + 2 * e.ca * e.rx2rz - e.a2 * e.ca * e.rz - e.a
  * e.rxry * e.sa + e.a2 * e.ca * e.rxry + e.a * e.rx2rz * e.sa) / e.a4 - e.px * e.rx * (e.a2 - e.rx2) * (2 * e.ca + e.a * e.sa -
  2) / e.a4) - 2 * e.ny * (e.pz * (e.a3 * e.sa - e.a * e.rx2 * e.sa + e.a2 * e.ca * e.rx2 + 2 * e.rxryrz - 2 * e.ca * e.rxryrz -
  e.a * e.rxryrz * e.sa) / e.a4 - e.px * (e.a2 * e.ry - 2 * e.rx2ry + 2 * e.ca * e.rx2ry - e.a2 * e.ca * e.ry - e.a * e.rxrz *
  e.sa + e.a2 * e.ca * e.rxrz + e.a * e.rx2ry * e.sa) / e.a4 + e.py * e.rx * (e.a3 * e.sa - 2 * e.ca * e.ry2 + 2 * e.ry2 - e.a *
  e.ry2 * e.sa) / e.a4) + 2 * e.nz * (e.px * (e.a2 * e.rz - 2 * e.rx2rz + 2 * e.ca * e.rx2rz - e.a2 * e.ca * e.rz + e.a * e.rxry *
  e.sa - e.a2 * e.ca * e.rxry + e.a * e.rx2rz * e.sa) / e.a4 + e.py * (e.a3 * e.sa - e.a * e.rx2 * e.sa + e.a2 * e.ca * e.rx2 - 2
  * e.rxryrz + 2 * e.ca * e.rxryrz + e.a * e.rxryrz * e.sa) / e.a4 - e.pz * e.rx * (e.a3 * e.sa - 2 * e.ca * e.rz2 + 2 * e.rz2 -
  e.a * e.rz2 * e.sa) / e.a4))) / 2

/-- Entry (0, 5), covariance-inl.hpp:3592-3617. -/
noncomputable def e05 (e : Env) : ℝ :=
  -(e.nz * (2 * e.nx * (e.py * (e.a2 * e.ry - 2 * e.rx2ry + 2 * e.ca * e.rx2ry - e.a2 * e.ca * e.ry + e.a * e.rxrz * e.sa - e.a2 *
  e.ca * e.rxrz + e.a * e.rx2ry * e.sa) / e.a4 + e.pz * (e.a2 * e.rz - 2 * e.rx2rz + 2 * e.ca * e.rx2rz - e.a2 * e.ca * e.rz - e.a
  * e.rxry * e.sa + e.a2 * e.ca * e.rxry + e.a * e.rx2rz * e.sa) / e.a4 - e.px * e.rx * (e.a2 - e.rx2) * (2 * e.ca + e.a * e.sa -
  2) / e.a4) - 2 * e.ny * (e.pz * (e.a3 * e.sa - e.a * e.rx2 * e.sa + e.a2 * e.ca * e.rx2 + 2 * e.rxryrz - 2 * e.ca * e.rxryrz -
  e.a * e.rxryrz * e.sa) / e.a4 - e.px * (e.a2 * e.ry - 2 * e.rx2ry + 2 * e.ca * e.rx2ry - e.a2 * e.ca * e.ry - e.a * e.rxrz *
  e.sa + e.a2 * e.ca * e.rxrz + e.a * e.rx2ry * e.sa) / e.a4 + e.py * e.rx * (e.a3 * e.sa - 2 * e.ca * e.ry2 + 2 * e.ry2 - e.a *
  e.ry2 * e.sa) / e.a4) + 2 * e.nz * (e.px * (e.a2 * e.rz - 2 * e.rx2rz + 2 * e.ca * e.rx2rz - e.a2 * e.ca * e.rz + e.a * e.rxry *
  e.sa - e.a2 * e.ca * e.rxry + e.a * e.rx2rz * e.sa) / e.a4 + e.py * (e.a3 * e.sa - e.a * e.rx2 * e.sa + e.a2 * e.ca * e.rx2 - 2
  * e.rxryrz + 2 * e.ca * e.rxryrz + e.a * e.rxryrz * e.sa) / e.a4 - e.pz * e.rx * (e.a3 * e.sa - 2 * e.ca * e.rz2 + 2 * e.rz2 -
  e.a * e.rz2 * e.sa) / e.a4))) / 2

/-- Entry (1, 0), covariance-inl.hpp:3618-3662. -/
noncomputable def e10 (e : Env) : ℝ :=
  (e.ny * (e.rxry + e.a * e.rz * e.sa - e.ca * e.rxry) / e.a2 - e.nz * (e.a * e.ry * e.sa - e.rxrz + e.ca * e.rxrz) / e.a2 + e.nx
  * (e.a2 * e.ca - e.ca * e.rx2 + e.rx2) / e.a2) * (2 * e.ny * (e.px * (e.a2 * e.rx - 2 * e.rxry2 + 2 * e.ca * e.rxry2 - e.a2 *
  e.ca * e.rx - e.a * e.ryrz * e.sa + e.a2 * e.ca * e.ryrz + e.a * e.rxry2 * e.sa) / e.a4 + e.pz * (e.a2 * e.rz - 2 * e.ry2rz + 2
  * e.ca * e.ry2rz - e.a2 * e.ca * e.rz + e.a * e.rxry * e.sa - e.a2 * e.ca * e.rxry + e.a * e.ry2rz * e.sa) / e.a4 - e.py * e.ry
  * (e.a2 - e.ry2) * (2 * e.ca + e.a * e.sa - 2) / e.a4) + 2 * e.nx * (e.py * (e.a2 * e.rx - 2 * e.rxry2 + 2 * e.ca * e.rxry2 -
  e.a2 * e.ca * e.rx + e.a * e.ryrz * e.sa - e.a2 * e.ca * e.ryrz + e.a * e.rxry2 * e.sa) / e.a4 + e.pz * (e.a3 * e.sa - e.a *
  e.ry2 * e.sa + e.a2 * e.ca * e.ry2 - 2 * e.rxryrz + 2 * e.ca * e.rxryrz + e.a * e.rxryrz * e.sa) / e.a4 - e.px * e.ry * (e.a3 *
  e.sa - 2 * e.ca * e.rx2 + 2 * e.rx2 - e.a * e.rx2 * e.sa) / e.a4) - 2 * e.nz * (e.px * (e.a3 * e.sa - e.a * e.ry2 * e.sa + e.a2
  * e.ca * e.ry2 + 2 * e.rxryrz - 2 * e.ca * e.rxryrz - e.a * e.rxryrz * e.sa) / e.a4 - e.py * (e.a2 * e.rz - 2 * e.ry2rz + 2 *
  e.ca * e.ry2rz - e.a2 * e.ca * e.rz - e.a * e.rxry * e.sa + e.a2 * e.ca * e.rxry + e.a * e.ry2rz * e.sa) / e.a4 + e.pz * e.ry *
  (e.a3 * e.sa - 2 * e.ca * e.rz2 + 2 * e.rz2 - e.a * e.rz2 * e.sa) / e.a4)) / 2 - (2 * e.nz * (e.a3 * e.sa - e.a * e.ry2 * e.sa +
  e.a2 * e.ca * e.ry2 + 2 * e.rxryrz - 2 * e.ca * e.rxryrz - e.a * e.rxryrz * e.sa) / e.a4 - 2 * e.ny * (e.a2 * e.rx - 2 * e.rxry2
  + 2 * e.ca * e.rxry2 - e.a2 * e.ca * e.rx - e.a * e.ryrz * e.sa + e.a2 * e.ca * e.ryrz + e.a * e.rxry2 * e.sa) / e.a4 + 2 * e.nx
  * e.ry * (e.a3 * e.sa - 2 * e.ca * e.rx2 + 2 * e.rx2 - e.a * e.rx2 * e.sa) / e.a4) * (e.nx * (e.a2 * e.tx - e.a2 * e.qx + e.px *
  e.rx2 - e.ca * e.px * e.rx2 + e.py * e.rxry + e.pz * e.rxrz + e.a2 * e.ca * e.px - e.a * e.py * e.rz * e.sa + e.a * e.pz * e.ry
  * e.sa - e.ca * e.py * e.rxry - e.ca * e.pz * e.rxrz) / e.a2 + e.ny * (e.a2 * e.ty - e.a2 * e.qy + e.py * e.ry2 - e.ca * e.py *
  e.ry2 + e.px * e.rxry + e.pz * e.ryrz + e.a2 * e.ca * e.py + e.a * e.px * e.rz * e.sa - e.a * e.pz * e.rx * e.sa - e.ca * e.px *
  e.rxry - e.ca * e.pz * e.ryrz) / e.a2 + e.nz * (e.a2 * e.tz - e.a2 * e.qz + e.pz * e.rz2 - e.ca * e.pz * e.rz2 + e.px * e.rxrz +
  e.py * e.ryrz + e.a2 * e.ca * e.pz - e.a * e.px * e.ry * e.sa + e.a * e.py * e.rx * e.sa - e.ca * e.px * e.rxrz - e.ca * e.py *
  e.ryrz) / e.a2) / 2

/-- Entry (1, 1), covariance-inl.hpp:3663-3709. -/
noncomputable def e11 (e : Env) : ℝ :=
  (2 * e.nx * (e.a2 * e.rx - 2 * e.rxry2 + 2 * e.ca * e.rxry2 - e.a2 * e.ca * e.rx + e.a * e.ryrz * e.sa - e.a2 * e.ca * e.ryrz +
  e.a * e.rxry2 * e.sa) / e.a4 + 2 * e.nz * (e.a2 * e.rz - 2 * e.ry2rz + 2 * e.ca * e.ry2rz - e.a2 * e.ca * e.rz - e.a * e.rxry *
  e.sa + e.a2 * e.ca * e.rxry + e.a * e.ry2rz * e.sa) / e.a4 - 2 * e.ny * e.ry * (e.a2 - e.ry2) * (2 * e.ca + e.a * e.sa - 2) /
  e.a4) * (e.nx * (e.a2 * e.tx - e.a2 * e.qx + e.px * e.rx2 - e.ca * e.px * e.rx2 + e.py * e.rxry + e.pz * e.rxrz + e.a2 * e.ca *
  e.px - e.a * e.py * e.rz * e.sa + e.a * e.pz * e.ry * e.sa - e.ca * e.py * e.rxry - e.ca * e.pz * e.rxrz) / e.a2 + e.ny * (e.a2
  * e.ty - e.a2 * e.qy + e.py * e.ry2 - e.ca * e.py * e.ry2 + e.px * e.rxry + e.pz * e.ryrz + e.a2 * e.ca * e.py + e.a * e.px *
  e.rz * e.sa - e.a * e.pz * e.rx * e.sa - e.ca * e.px * e.rxry - e.ca * e.pz * e.ryrz) / e.a2 + e.nz * (e.a2 * e.tz - e.a2 * e.qz
  + e.pz * e.rz2 - e.ca * e.pz * e.rz2 + e.px * e.rxrz + e.py * e.ryrz + e.a2 * e.ca * e.pz - e.a * e.px * e.ry * e.sa + e.a *
  e.py * e.rx * e.sa - e.ca * e.px * e.rxrz - e.ca * e.py * e.ryrz) / e.a2) / 2 + (e.nz * (e.ryrz + e.a * e.rx * e.sa - e.ca *
  e.ryrz) / e.a2 - e.nx * (e.a * e.rz * e.sa - e.rxry + e.ca * e.rxry) / e.a2 + e.ny * (e.a2 * e.ca - e.ca * e.ry2 + e.ry2) /
  e.a2) * (2 * e.ny * (e.px * (e.a2 * e.rx - 2 * e.rxry2 + 2 * e.ca * e.rxry2 - e.a2 * e.ca * e.rx - e.a * e.ryrz * e.sa + e.a2 *
  e.ca * e.ryrz + e.a * e.rxry2 * e.sa) / e.a4 + e.pz * (e.a2 * e.rz - 2 * e.ry2rz + 2 * e.ca * e.ry2rz - e.a2 * e.ca * e.rz + e.a
  * e.rxry * e.sa - e.a2 * e.ca * e.rxry + e.a * e.ry2rz * e.sa) / e.a4 - e.py * e.ry * (e.a2 - e.ry2) * (2 * e.ca + e.a * e.sa -
  2) / e.a4) + 2 * e.nx * (e.py * (e.a2 * e.rx - 2 * e.rxry2 + 2 * e.ca * e.rxry2 - e.a2 * e.ca * e.rx + e.a * e.ryrz * e.sa -
  e.a2 * e.ca * e.ryrz + e.a * e.rxry2 * e.sa) / e.a4 + e.pz * (e.a3 * e.sa - e.a * e.ry2 * e.sa + e.a2 * e.ca * e.ry2 - 2 *
  e.rxryrz + 2 * e.ca * e.rxryrz + e.a * e.rxryrz * e.sa) / e.a4 - e.px * e.ry * (e.a3 * e.sa - 2 * e.ca * e.rx2 + 2 * e.rx2 - e.a
  * e.rx2 * e.sa) / e.a4) - 2 * e.nz * (e.px * (e.a3 * e.sa - e.a * e.ry2 * e.sa + e.a2 * e.ca * e.ry2 + 2 * e.rxryrz - 2 * e.ca *
  e.rxryrz - e.a * e.rxryrz * e.sa) / e.a4 - e.py * (e.a2 * e.rz - 2 * e.ry2rz + 2 * e.ca * e.ry2rz - e.a2 * e.ca * e.rz - e.a *
  e.rxry * e.sa + e.a2 * e.ca * e.rxry + e.a * e.ry2rz * e.sa) / e.a4 + e.pz * e.ry * (e.a3 * e.sa - 2 * e.ca * e.rz2 + 2 * e.rz2
  - e.a * e.rz2 * e.sa) / e.a4)) / 2

/-- Entry (1, 2), covariance-inl.hpp:3710-3756. -/
noncomputable def e12 (e : Env) : ℝ :=
  (e.nx * (e.rxrz + e.a * e.ry * e.sa - e.ca * e.rxrz) / e.a2 - e.ny * (e.a * e.rx * e.sa - e.ryrz + e.ca * e.ryrz) / e.a2 + e.nz
  * (e.a2 * e.ca - e.ca * e.rz2 + e.rz2) / e.a2) * (2 * e.ny * (e.px * (e.a2 * e.rx - 2 * e.rxry2 + 2 * e.ca * e.rxry2 - e.a2 *
  e.ca * e.rx - e.a * e.ryrz * e.sa + e.a2 * e.ca * e.ryrz + e.a * e.rxry2 * e.sa) / e.a4 + e.pz * (e.a2 * e.rz - 2 * e.ry2rz + 2
  * e.ca * e.ry2rz - e.a2 * e.ca * e.rz + e.a * e.rxry * e.sa - e.a2 * e.ca * e.rxry + e.a * e.ry2rz * e.sa) / e.a4 - e.py * e.ry
  * (e.a2 - e.ry2) * (2 * e.ca + e.a * e.sa - 2) / e.a4) + 2 * e.nx * (e.py * (e.a2 * e.rx - 2 * e.rxry2 + 2 * e.ca * e.rxry2 -
  e.a2 * e.ca * e.rx + e.a * e.ryrz * e.sa - e.a2 * e.ca * e.ryrz + e.a * e.rxry2 * e.sa) / e.a4 + e.pz * (e.a3 * e.sa - e.a *
  e.ry2 * e.sa + e.a2 * e.ca * e.ry2 - 2 * e.rxryrz + 2 * e.ca * e.rxryrz + e.a * e.rxryrz * e.sa) / e.a4 - e.px * e.ry * (e.a3 *
  e.sa - 2 * e.ca * e.rx2 + 2 * e.rx2 - e.a * e.rx2 * e.sa) / e.a4) - 2 * e.nz * (e.px * (e.a3 * e.sa - e.a * e.ry2 * e.sa + e.a2
  * e.ca * e.ry2 + 2 * e.rxryrz - 2 * e.ca * e.rxryrz - e.a * e.rxryrz * e.sa) / e.a4 - e.py * (e.a2 * e.rz - 2 * e.ry2rz + 2 *
  e.ca * e.ry2rz - e.a2 * e.ca * e.rz - e.a * e.rxry * e.sa + e.a2 * e.ca * e.rxry + e.a * e.ry2rz * e.sa) / e.a4 + e.pz * e.ry *
  (e.a3 * e.sa - 2 * e.ca * e.rz2 + 2 * e.rz2 - e.a * e.rz2 * e.sa) / e.a4)) / 2 + (2 * e.ny * (e.a2 * e.rz - 2 * e.ry2rz + 2 *
  e.ca * e.ry2rz - e.a2 * e.ca * e.rz + e.a * e.rxry * e.sa - e.a2 * e.ca * e.rxry + e.a * e.ry2rz * e.sa) / e.a4 + 2 * e.nx *
  (e.a3 * e.sa - e.a * e.ry2 * e.sa + e.a2 * e.ca * e.ry2 - 2 * e.rxryrz + 2 * e.ca * e.rxryrz + e.a * e.rxryrz * e.sa) / e.a4 - 2
  * e.nz * e.ry * (e.a3 * e.sa - 2 * e.ca * e.rz2 + 2 * e.rz2 - e.a * e.rz2 * e.sa) / e.a4) * (e.nx * (e.a2 * e.tx - e.a2 * e.qx +
  e.px * e.rx2 - e.ca * e.px * e.rx2 + e.py * e.rxry + e.pz * e.rxrz + e.a2 * e.ca * e.px - e.a * e.py * e.rz * e.sa + e.a * e.pz
  * e.ry * e.sa - e.ca * e.py * e.rxry - e.ca * e.pz * e.rxrz) / e.a2 + e.ny * (e.a2 * e.ty - e.a2 * e.qy + e.py * e.ry2 - e.ca *
  e.py * e.ry2 + e.px * e.rxry + e.pz * e.ryrz + e.a2 * e.ca * e.py + e.a * e.px * e.rz * e.sa - e.a * e.pz * e.rx * e.sa - e.ca *
  e.px * e.rxry - e.ca * e.pz * e.ryrz) / e.a2 + e.nz * (e.a2 * e.tz - e.a2 * e.qz + e.pz * e.rz2 - e.ca * e.pz * e.rz2 + e.px *
  e.rxrz + e.py * e.ryrz + e.a2 * e.ca * e.pz - e.a * e.px * e.ry * e.sa + e.a * e.py * e.rx * e.sa - e.ca * e.px * e.rxrz - e.ca
  * e.py * e.ryrz) / e.a2) / 2

/-- Entry (1, 3), covariance-inl.hpp:3757-3782. -/
noncomputable def e13 (e : Env) : ℝ :=
  -(e.nx * (2 * e.ny * (e.px * (e.a2 * e.rx - 2 * e.rxry2 + 2 * e.ca * e.rxry2 - e.a2 * e.ca * e.rx - e.a * e.ryrz * e.sa + e.a2 *
  e.ca * e.ryrz + e.a * e.rxry2 * e.sa) / e.a4 + e.pz * (e.a2 * e.rz - 2 * e.ry2rz + 2 * e.ca * e.ry2rz - e.a2 * e.ca * e.rz + e.a
  * e.rxry * e.sa - e.a2 * e.ca * e.rxry + e.a * e.ry2rz * e.sa) / e.a4 - e.py * e.ry * (e.a2 - e.ry2) * (2 * e.ca + e.a * e.sa -
  2) / e.a4) + 2 * e.nx * (e.py * (e.a2 * e.rx - 2 * e.rxry2 + 2 * e.ca * e.rxry2 - e.a2 * e.ca * e.rx + e.a * e.ryrz * e.sa -
  e.a2 * e.ca * e.ryrz + e.a * e.rxry2 * e.sa) / e.a4 + e.pz * (e.a3 * e.sa - e.a * e.ry2 * e.sa + e.a2 * e.ca * e.ry2 - 2 *
  e.rxryrz + 2 * e.ca * e.rxryrz + e.a * e.rxryrz * e.sa) / e.a4 - e.px * e.ry * (e.a3 * e.sa - 2 * e.ca * e.rx2 + 2 * e.rx2 - e.a
  * e.rx2 * e.sa) / e.a4) - 2 * e.nz * (e.px * (e.a3 * e.sa - e.a * e.ry2 * e.sa + e.a2 * e.ca * e.ry2 + 2 * e.rxryrz - 2 * e.ca *
  e.rxryrz - e.a * e.rxryrz * e.sa) / e.a4 - e.py * (e.a2 * e.rz - 2 * e.ry2rz + 2 * e.ca * e.ry2rz - e.a2 * e.ca * e.rz - e.a *
  e.rxry * e.sa + e.a2 * e.ca * e.rxry + e.a * e.ry2rz * e.sa) / e.a4 + e.pz * e.ry * (e.a3 * e.sa - 2 * e.ca * e.rz2 + 2 * e.rz2
  - e.a * e.rz2 * e.sa) / e.a4))) / 2

/-- Entry (1, 4), covariance-inl.hpp:3783-3808. -/
noncomputable def e14 (e : Env) : ℝ :=
  -(e.ny * (2 * e.ny * (e.px * (e.a2 * e.rx - 2 * e.rxry2 + 2 * e.ca * e.rxry2 - e.a2 * e.ca * e.rx - e.a * e.ryrz * e.sa + e.a2 *
  e.ca * e.ryrz + e.a * e.rxry2 * e.sa) / e.a4 + e.pz * (e.a2 * e.rz - 2 * e.ry2rz + 2 * e.ca * e.ry2rz - e.a2 * e.ca * e.rz + e.a
  * e.rxry * e.sa - e.a2 * e.ca * e.rxry + e.a * e.ry2rz * e.sa) / e.a4 - e.py * e.ry * (e.a2 - e.ry2) * (2 * e.ca + e.a * e.sa -
  2) / e.a4) + 2 * e.nx * (e.py * (e.a2 * e.rx - 2 * e.rxry2 + 2 * e.ca * e.rxry2 - e.a2 * e.ca * e.rx + e.a * e.ryrz * e.sa -
  e.a2 * e.ca * e.ryrz + e.a * e.rxry2 * e.sa) / e.a4 + e.pz * (e.a3 * e.sa - e.a * e.ry2 * e.sa + e.a2 * e.ca * e.ry2 - 2 *
  e.rxryrz + 2 * e.ca * e.rxryrz + e.a * e.rxryrz * e.sa) / e.a4 - e.px * e.ry * (e.a3 * e.sa - 2 * e.ca * e.rx2 + 2 * e.rx2 - e.a
  * e.rx2 * e.sa) / e.a4) - 2 * e.nz * (e.px * (e.a3 * e.sa - e.a * e.ry2 * e.sa + e.a2 * e.ca * e.ry2 + 2 * e.rxryrz - 2 * e.ca *
  e.rxryrz - e.a * e.rxryrz * e.sa) / e.a4 - e.py * (e.a2 * e.rz - 2 * e.ry2rz + 2 * e.ca * e.ry2rz - e.a2 * e.ca * e.rz - e.a *
  e.rxry * e.sa + e.a2 * e.ca * e.rxry + e.a * e.ry2rz * e.sa) / e.a4 + e.pz * e.ry * (e.a3 * e.sa - 2 * e.ca * e.rz2 + 2 * e.rz2
  - e.a * e.rz2 * e.sa) / e.a4))) / 2

/-- Entry (1, 5), covariance-inl.hpp:3809-3834. -/
noncomputable def e15 (e : Env) : ℝ :=
  -(e.nz * (2 * e.ny * (e.px * (e.a2 * e.rx - 2 * e.rxry2 + 2 * e.ca * e.rxry2 - e.a2 * e.ca * e.rx - e.a * e.ryrz * e.sa + e.a2 *
  e.ca * e.ryrz + e.a * e.rxry2 * e.sa) / e.a4 + e.pz * (e.a2 * e.rz - 2 * e.ry2rz + 2 * e.ca * e.ry2rz - e.a2 * e.ca * e.rz + e.a
  * e.rxry * e.sa - e.a2 * e.ca * e.rxry + e.a * e.ry2rz * e.sa) / e.a4 - e.py * e.ry * (e.a2 - e.ry2) * (2 * e.ca + e.a * e.sa -
  2) / e.a4) + 2 * e.nx * (e.py * (e.a2 * e.rx - 2 * e.rxry2 + 2 * e.ca * e.rxry2 - e.a2 * e.ca * e.rx + e.a * e.ryrz * e.sa -
  e.a2 * e.ca * e.ryrz + e.a * e.rxry2 * e.sa) / e.a4 + e.pz * (e.a3 * e.sa - e.a * e.ry2 * e.sa + e.a2 * e.ca * e.ry2 - 2 *
  e.rxryrz + 2 * e.ca * e.rxryrz + e.a * e.rxryrz * e.sa) / e.a4 - e.px * e.ry * (e.a3 * e.sa - 2 * e.ca * e.rx2 + 2 * e.rx2 - e.a
  * e.rx2 * e.sa) / e.a4) - 2 * e.nz * (e.px * (e.a3 * e.sa - e.a * e.ry2 * e.sa + e.a2 * e.ca * e.ry2 + 2 * e.rxryrz - 2 * e.ca *
  e.rxryrz - e.a * e.rxryrz * e.sa) / e.a4 - e.py * (e.a2 * e.rz - 2 * e.ry2rz + 2 * e.ca * e.ry2rz - e.a2 * e.ca * e.rz - e.a *
  e.rxry * e.sa + e.a2 * e.ca * e.rxry + e.a * e.ry2rz * e.sa) / e.a4 + e.pz * e.ry * (e.a3 * e.sa - 2 * e.ca * e.rz2 + 2 * e.rz2
  - e.a * e.rz2 * e.sa) / e.a4))) / 2

/-- Entry (2, 0), covariance-inl.hpp:3835-3881. -/
noncomputable def e20 (e : Env) : ℝ :=
  (e.ny * (e.rxry + e.a * e.rz * e.sa - e.ca * e.rxry) / e.a2 - e.nz * (e.a * e.ry * e.sa - e.rxrz + e.ca * e.rxrz) / e.a2 + e.nx
  * (e.a2 * e.ca - e.ca * e.rx2 + e.rx2) / e.a2) * (2 * e.nz * (e.px * (e.a2 * e.rx - 2 * e.rxrz2 + 2 * e.ca * e.rxrz2 - e.a2 *
  e.ca * e.rx + e.a * e.ryrz * e.sa - e.a2 * e.ca * e.ryrz + e.a * e.rxrz2 * e.sa) / e.a4 + e.py * (e.a2 * e.ry - 2 * e.ryrz2 + 2
  * e.ca * e.ryrz2 - e.a2 * e.ca * e.ry - e.a * e.rxrz * e.sa + e.a2 * e.ca * e.rxrz + e.a * e.ryrz2 * e.sa) / e.a4 - e.pz * e.rz
  * (e.a2 - e.rz2) * (2 * e.ca + e.a * e.sa - 2) / e.a4) - 2 * e.nx * (e.py * (e.a3 * e.sa - e.a * e.rz2 * e.sa + e.a2 * e.ca *
  e.rz2 + 2 * e.rxryrz - 2 * e.ca * e.rxryrz - e.a * e.rxryrz * e.sa) / e.a4 - e.pz * (e.a2 * e.rx - 2 * e.rxrz2 + 2 * e.ca *
  e.rxrz2 - e.a2 * e.ca * e.rx - e.a * e.ryrz * e.sa + e.a2 * e.ca * e.ryrz + e.a * e.rxrz2 * e.sa) / e.a4 + e.px * e.rz * (e.a3 *
  e.sa - 2 * e.ca * e.rx2 + 2 * e.rx2 - e.a * e.rx2 * e.sa) / e.a4) + 2 * e.ny * (e.pz * (e.a2 * e.ry - 2 * e.ryrz2 + 2 * e.ca *
  e.ryrz2 - e.a2 * e.ca * e.ry + e.a * e.rxrz * e.sa - e.a2 * e.ca * e.rxrz + e.a * e.ryrz2 * e.sa) / e.a4 + e.px * (e.a3 * e.sa -
  e.a * e.rz2 * e.sa + e.a2 * e.ca * e.rz2 - 2 * e.rxryrz + 2 * e.ca * e.rxryrz + e.a * e.rxryrz * e.sa) / e.a4 - e.py * e.rz *
  (e.a3 * e.sa - 2 * e.ca * e.ry2 + 2 * e.ry2 - e.a * e.ry2 * e.sa) / e.a4)) / 2 + (2 * e.nz * (e.a2 * e.rx - 2 * e.rxrz2 + 2 *
  e.ca * e.rxrz2 - e.a2 * e.ca * e.rx + e.a * e.ryrz * e.sa - e.a2 * e.ca * e.ryrz + e.a * e.rxrz2 * e.sa) / e.a4 + 2 * e.ny *
  (e.a3 * e.sa - e.a * e.rz2 * e.sa + e.a2 * e.ca * e.rz2 - 2 * e.rxryrz + 2 * e.ca * e.rxryrz + e.a * e.rxryrz * e.sa) / e.a4 - 2
  * e.nx * e.rz * (e.a3 * e.sa - 2 * e.ca * e.rx2 + 2 * e.rx2 - e.a * e.rx2 * e.sa) / e.a4) * (e.nx * (e.a2 * e.tx - e.a2 * e.qx +
  e.px * e.rx2 - e.ca * e.px * e.rx2 + e.py * e.rxry + e.pz * e.rxrz + e.a2 * e.ca * e.px - e.a * e.py * e.rz * e.sa + e.a * e.pz
  * e.ry * e.sa - e.ca * e.py * e.rxry - e.ca * e.pz * e.rxrz) / e.a2 + e.ny * (e.a2 * e.ty - e.a2 * e.qy + e.py * e.ry2 - e.ca *
  e.py * e.ry2 + e.px * e.rxry + e.pz * e.ryrz + e.a2 * e.ca * e.py + e.a * e.px * e.rz * e.sa - e.a * e.pz * e.rx * e.sa - e.ca *
  e.px * e.rxry - e.ca * e.pz * e.ryrz) / e.a2 + e.nz * (e.a2 * e.tz - e.a2 * e.qz + e.pz * e.rz2 - e.ca * e.pz * e.rz2 + e.px *
  e.rxrz + e.py * e.ryrz + e.a2 * e.ca * e.pz - e.a * e.px * e.ry * e.sa + e.a * e.py * e.rx * e.sa - e.ca * e.px * e.rxrz - e.ca
  * e.py * e.ryrz) / e.a2) / 2

/-- Entry (2, 1), covariance-inl.hpp:3882-3926. -/
noncomputable def e21 (e : Env) : ℝ :=
  (e.nz * (e.ryrz + e.a * e.rx * e.sa - e.ca * e.ryrz) / e.a2 - e.nx * (e.a * e.rz * e.sa - e.rxry + e.ca * e.rxry) / e.a2 + e.ny
  * (e.a2 * e.ca - e.ca * e.ry2 + e.ry2) / e.a2) * (2 * e.nz * (e.px * (e.a2 * e.rx - 2 * e.rxrz2 + 2 * e.ca * e.rxrz2 - e.a2 *
  e.ca * e.rx + e.a * e.ryrz * e.sa - e.a2 * e.ca * e.ryrz + e.a * e.rxrz2 * e.sa) / e.a4 + e.py * (e.a2 * e.ry - 2 * e.ryrz2 + 2
  * e.ca * e.ryrz2 - e.a2 * e.ca * e.ry - e.a * e.rxrz * e.sa + e.a2 * e.ca * e.rxrz + e.a * e.ryrz2 * e.sa) / e.a4 - e.pz * e.rz
  * (e.a2 - e.rz2) * (2 * e.ca + e.a * e.sa - 2) / e.a4) - 2 * e.nx * (e.py * (e.a3 * e.sa - e.a * e.rz2 * e.sa + e.a2 * e.ca *
  e.rz2 + 2 * e.rxryrz - 2 * e.ca * e.rxryrz - e.a * e.rxryrz * e.sa) / e.a4 - e.pz * (e.a2 * e.rx - 2 * e.rxrz2 + 2 * e.ca *
  e.rxrz2 - e.a2 * e.ca * e.rx - e.a * e.ryrz * e.sa + e.a2 * e.ca * e.ryrz + e.a * e.rxrz2 * e.sa) / e.a4 + e.px * e.rz * (e.a3 *
  e.sa - 2 * e.ca * e.rx2 + 2 * e.rx2 - e.a * e.rx2 * e.sa) / e.a4) + 2 * e.ny * (e.pz * (e.a2 * e.ry - 2 * e.ryrz2 + 2 * e.ca *
  e.ryrz2 - e.a2 * e.ca * e.ry + e.a * e.rxrz * e.sa - e.a2 * e.ca * e.rxrz + e.a * e.ryrz2 * e.sa) / e.a4 + e.px * (e.a3 * e.sa -
  e.a * e.rz2 * e.sa + e.a2 * e.ca * e.rz2 - 2 * e.rxryrz + 2 * e.ca * e.rxryrz + e.a * e.rxryrz * e.sa) / e.a4 - e.py * e.rz *
  (e.a3 * e.sa - 2 * e.ca * e.ry2 + 2 * e.ry2 - e.a * e.ry2 * e.sa) / e.a4)) / 2 - (2 * e.nx * (e.a3 * e.sa - e.a * e.rz2 * e.sa +
  e.a2 * e.ca * e.rz2 + 2 * e.rxryrz - 2 * e.ca * e.rxryrz - e.a * e.rxryrz * e.sa) / e.a4 - 2 * e.nz * (e.a2 * e.ry - 2 * e.ryrz2
  + 2 * e.ca * e.ryrz2 - e.a2 * e.ca * e.ry - e.a * e.rxrz * e.sa + e.a2 * e.ca * e.rxrz + e.a * e.ryrz2 * e.sa) / e.a4 + 2 * e.ny
  * e.rz * (e.a3 * e.sa - 2 * e.ca * e.ry2 + 2 * e.ry2 - e.a * e.ry2 * e.sa) / e.a4) * (e.nx * (e.a2 * e.tx - e.a2 * e.qx + e.px *
  e.rx2 - e.ca * e.px * e.rx2 + e.py * e.rxry + e.pz * e.rxrz + e.a2 * e.ca * e.px - e.a * e.py * e.rz * e.sa + e.a * e.pz * e.ry
  * e.sa - e.ca * e.py * e.rxry - e.ca * e.pz * e.rxrz) / e.a2 + e.ny * (e.a2 * e.ty - e.a2 * e.qy + e.py * e.ry2 - e.ca * e.py *
  e.ry2 + e.px * e.rxry + e.pz * e.ryrz + e.a2 * e.ca * e.py + e.a * e.px * e.rz * e.sa - e.a * e.pz * e.rx * e.sa - e.ca * e.px *
  e.rxry - e.ca * e.pz * e.ryrz) / e.a2 + e.nz * (e.a2 * e.tz - e.a2 * e.qz + e.pz * e.rz2 - e.ca * e.pz * e.rz2 + e.px * e.rxrz +
  e.py * e.ryrz + e.a2 * e.ca * e.pz - e.a * e.px * e.ry * e.sa + e.a * e.py * e.rx * e.sa - e.ca * e.px * e.rxrz - e.ca * e.py *
  e.ryrz) / e.a2) / 2

/-- Entry (2, 2), covariance-inl.hpp:3927-3973. -/
noncomputable def e22 (e : Env) : ℝ :=
  (2 * e.nx * (e.a2 * e.rx - 2 * e.rxrz2 + 2 * e.ca * e.rxrz2 - e.a2 * e.ca * e.rx - e.a * e.ryrz * e.sa + e.a2 * e.ca * e.ryrz +
  e.a * e.rxrz2 * e.sa) / e.a4 + 2 * e.ny * (e.a2 * e.ry - 2 * e.ryrz2 + 2 * e.ca * e.ryrz2 - e.a2 * e.ca * e.ry + e.a * e.rxrz *
  e.sa - e.a2 * e.ca * e.rxrz + e.a * e.ryrz2 * e.sa) / e.a4 - 2 * e.nz * e.rz * (e.a2 - e.rz2) * (2 * e.ca + e.a * e.sa - 2) /
  e.a4) * (e.nx * (e.a2 * e.tx - e.a2 * e.qx + e.px * e.rx2 - e.ca * e.px * e.rx2 + e.py * e.rxry + e.pz * e.rxrz + e.a2 * e.ca *
  e.px - e.a * e.py * e.rz * e.sa + e.a * e.pz * e.ry * e.sa - e.ca * e.py * e.rxry - e.ca * e.pz * e.rxrz) / e.a2 + e.ny * (e.a2
  * e.ty - e.a2 * e.qy + e.py * e.ry2 - e.ca * e.py * e.ry2 + e.px * e.rxry + e.pz * e.ryrz + e.a2 * e.ca * e.py + e.a * e.px *
  e.rz * e.sa - e.a * e.pz * e.rx * e.sa - e.ca * e.px * e.rxry - e.ca * e.pz * e.ryrz) / e.a2 + e.nz * (e.a2 * e.tz - e.a2 * e.qz
  + e.pz * e.rz2 - e.ca * e.pz * e.rz2 + e.px * e.rxrz + e.py * e.ryrz + e.a2 * e.ca * e.pz - e.a * e.px * e.ry * e.sa + e.a *
  e.py * e.rx * e.sa - e.ca * e.px * e.rxrz - e.ca * e.py * e.ryrz) / e.a2) / 2 + (e.nx * (e.rxrz + e.a * e.ry * e.sa - e.ca *
  e.rxrz) / e.a2 - e.ny * (e.a * e.rx * e.sa - e.ryrz + e.ca * e.ryrz) / e.a2 + e.nz * (e.a2 * e.ca - e.ca * e.rz2 + e.rz2) /
  e.a2) * (2 * e.nz * (e.px * (e.a2 * e.rx - 2 * e.rxrz2 + 2 * e.ca * e.rxrz2 - e.a2 * e.ca * e.rx + e.a * e.ryrz * e.sa - e.a2 *
  e.ca * e.ryrz + e.a * e.rxrz2 * e.sa) / e.a4 + e.py * (e.a2 * e.ry - 2 * e.ryrz2 + 2 * e.ca * e.ryrz2 - e.a2 * e.ca * e.ry - e.a
  * e.rxrz * e.sa + e.a2 * e.ca * e.rxrz + e.a * e.ryrz2 * e.sa) / e.a4 - e.pz * e.rz * (e.a2 - e.rz2) * (2 * e.ca + e.a * e.sa -
  2) / e.a4) - 2 * e.nx * (e.py * (e.a3 * e.sa - e.a * e.rz2 * e.sa + e.a2 * e.ca * e.rz2 + 2 * e.rxryrz - 2 * e.ca * e.rxryrz -
  e.a * e.rxryrz * e.sa) / e.a4 - e.pz * (e.a2 * e.rx - 2 * e.rxrz2 + 2 * e.ca * e.rxrz2 - e.a2 * e.ca * e.rx - e.a * e.ryrz *
  e.sa + e.a2 * e.ca * e.ryrz + e.a * e.rxrz2 * e.sa) / e.a4 + e.px * e.rz * (e.a3 * e.sa - 2 * e.ca * e.rx2 + 2 * e.rx2 - e.a *
  e.rx2 * e.sa) / e.a4) + 2 * e.ny * (e.pz * (e.a2 * e.ry - 2 * e.ryrz2 + 2 * e.ca * e.ryrz2 - e.a2 * e.ca * e.ry + e.a * e.rxrz *
  e.sa - e.a2 * e.ca * e.rxrz + e.a * e.ryrz2 * e.sa) / e.a4 + e.px * (e.a3 * e.sa - e.a * e.rz2 * e.sa + e.a2 * e.ca * e.rz2 - 2
  * e.rxryrz + 2 * e.ca * e.rxryrz + e.a * e.rxryrz * e.sa) / e.a4 - e.py * e.rz * (e.a3 * e.sa - 2 * e.ca * e.ry2 + 2 * e.ry2 -
  e.a * e.ry2 * e.sa) / e.a4)) / 2

/-- Entry (2, 3), covariance-inl.hpp:3974-3999. -/
noncomputable def e23 (e : Env) : ℝ :=
  -(e.nx * (2 * e.nz * (e.px * (e.a2 * e.rx - 2 * e.rxrz2 + 2 * e.ca * e.rxrz2 - e.a2 * e.ca * e.rx + e.a * e.ryrz * e.sa - e.a2 *
  e.ca * e.ryrz + e.a * e.rxrz2 * e.sa) / e.a4 + e.py * (e.a2 * e.ry - 2 * e.ryrz2 + 2 * e.ca * e.ryrz2 - e.a2 * e.ca * e.ry - e.a
  * e.rxrz * e.sa + e.a2 * e.ca * e.rxrz + e.a * e.ryrz2 * e.sa) / e.a4 - e.pz * e.rz * (e.a2 - e.rz2) * (2 * e.ca + e.a * e.sa -
  2) / e.a4) - 2 * e.nx * (e.py * (e.a3 * e.sa - e.a * e.rz2 * e.sa + e.a2 * e.ca * e.rz2 + 2 * e.rxryrz - 2 * e.ca * e.rxryrz -
  e.a * e.rxryrz * e.sa) / e.a4 - e.pz * (e.a2 * e.rx - 2 * e.rxrz2 + 2 * e.ca * e.rxrz2 - e.a2 * e.ca * e.rx - e.a * e.ryrz *
  e.sa + e.a2 * e.ca * e.ryrz + e.a * e.rxrz2 * e.sa) / e.a4 + e.px * e.rz * (e.a3 * e.sa - 2 * e.ca * e.rx2 + 2 * e.rx2 - e.a *
  e.rx2 * e.sa) / e.a4) + 2 * e.ny * (e.pz * (e.a2 * e.ry - 2 * e.ryrz2 + 2 * e.ca * e.ryrz2 - e.a2 * e.ca * e.ry + e.a * e.rxrz *
  e.sa - e.a2 * e.ca * e.rxrz + e.a * e.ryrz2 * e.sa) / e.a4 + e.px * (e.a3 * e.sa - e.a * e.rz2 * e.sa + e.a2 * e.ca * e.rz2 - 2
  * e.rxryrz + 2 * e.ca * e.rxryrz + e.a * e.rxryrz * e.sa) / e.a4 - e.py * e.rz * (e.a3 * e.sa - 2 * e.ca * e.ry2 + 2 * e.ry2 -
  e.a * e.ry2 * e.sa) / e.a4))) / 2

/-- Entry (2, 4), covariance-inl.hpp:4000-4025. -/
noncomputable def e24 (e : Env) : ℝ :=
  -(e.ny * (2 * e.nz * (e.px * (e.a2 * e.rx - 2 * e.rxrz2 + 2 * e.ca * e.rxrz2 - e.a2 * e.ca * e.rx + e.a * e.ryrz * e.sa - e.a2 *
  e.ca * e.ryrz + e.a * e.rxrz2 * e.sa) / e.a4 + e.py * (e.a2 * e.ry - 2 * e.ryrz2 + 2 * e.ca * e.ryrz2 - e.a2 * e.ca * e.ry - e.a
  * e.rxrz * e.sa + e.a2 * e.ca * e.rxrz + e.a * e.ryrz2 * e.sa) / e.a4 - e.pz * e.rz * (e.a2 - e.rz2) * (2 * e.ca + e.a * e.sa -
  2) / e.a4) - 2 * e.nx * (e.py * (e.a3 * e.sa - e.a * e.rz2 * e.sa + e.a2 * e.ca * e.rz2 + 2 * e.rxryrz - 2 * e.ca * e.rxryrz -
  e.a * e.rxryrz * e.sa) / e.a4 - e.pz * (e.a2 * e.rx - 2 * e.rxrz2 + 2 * e.ca * e.rxrz2 - e.a2 * e.ca * e.rx - e.a * e.ryrz *
  e.sa + e.a2 * e.ca * e.ryrz + e.a * e.rxrz2 * e.sa) / e.a4 + e.px * e.rz * (e.a3 * e.sa - 2 * e.ca * e.rx2 + 2 * e.rx2 - e.a *
  e.rx2 * e.sa) / e.a4) + 2 * e.ny * (e.pz * (e.a2 * e.ry - 2 * e.ryrz2 + 2 * e.ca * e.ryrz2 - e.a2 * e.ca * e.ry + e.a * e.rxrz *
  e.sa - e.a2 * e.ca * e.rxrz + e.a * e.ryrz2 * e.sa) / e.a4 + e.px * (e.a3 * e.sa - e.a * e.rz2 * e.sa + e.a2 * e.ca * e.rz2 - 2
  * e.rxryrz + 2 * e.ca * e.rxryrz + e.a * e.rxryrz * e.sa) / e.a4 - e.py * e.rz * (e.a3 * e.sa - 2 * e.ca * e.ry2 + 2 * e.ry2 -
  e.a * e.ry2 * e.sa) / e.a4))) / 2

/-- Entry (2, 5), covariance-inl.hpp:4026-4051. -/
noncomputable def e25 (e : Env) : ℝ :=
  -(e.nz * (2 * e.nz * (e.px * (e.a2 * e.rx - 2 * e.rxrz2 + 2 * e.ca * e.rxrz2 - e.a2 * e.ca * e.rx + e.a * e.ryrz * e.sa - e.a2 *
  e.ca * e.ryrz + e.a * e.rxrz2 * e.sa) / e.a4 + e.py * (e.a2 * e.ry - 2 * e.ryrz2 + 2 * e.ca * e.ryrz2 - e.a2 * e.ca * e.ry - e.a
  * e.rxrz * e.sa + e.a2 * e.ca * e.rxrz + e.a * e.ryrz2 * e.sa) / e.a4 - e.pz * e.rz * (e.a2 - e.rz2) * (2 * e.ca + e.a * e.sa -
  2) / e.a4) - 2 * e.nx * (e.py * (e.a3 * e.sa - e.a * e.rz2 * e.sa + e.a2 * e.ca * e.rz2 + 2 * e.rxryrz - 2 * e.ca * e.rxryrz -
  e.a * e.rxryrz * e.sa) / e.a4 - e.pz * (e.a2 * e.rx - 2 * e.rxrz2 + 2 * e.ca * e.rxrz2 - e.a2 * e.ca * e.rx - e.a * e.ryrz *
  e.sa + e.a2 * e.ca * e.ryrz + e.a * e.rxrz2 * e.sa) / e.a4 + e.px * e.rz * (e.a3 * e.sa - 2 * e.ca * e.rx2 + 2 * e.rx2 - e.a *
  e.rx2 * e.sa) / e.a4) + 2 * e.ny * (e.pz * (e.a2 * e.ry - 2 * e.ryrz2 + 2 * e.ca * e.ryrz2 - e.a2 * e.ca * e.ry + e.a * e.rxrz *
  e.sa - e.a2 * e.ca * e.rxrz + e.a * e.ryrz2 * e.sa) / e.a4 + e.px * (e.a3 * e.sa - e.a * e.rz2 * e.sa + e.a2 * e.ca * e.rz2 - 2
  * e.rxryrz + 2 * e.ca * e.rxryrz + e.a * e.rxryrz * e.sa) / e.a4 - e.py * e.rz * (e.a3 * e.sa - 2 * e.ca * e.ry2 + 2 * e.ry2 -
  e.a * e.ry2 * e.sa) / e.a4))) / 2

/-- Entry (3, 0), covariance-inl.hpp:4052-4053. -/
noncomputable def e30 (e : Env) : ℝ :=
  e.nx * (e.nx * (e.ca - e.rx2 * e.cam1 / e.a2) + e.ny * (e.rz * e.sa / e.a - e.rxry * e.cam1 / e.a2) - e.nz * (e.ry * e.sa / e.a
  + e.rxrz * e.cam1 / e.a2))

/-- Entry (3, 1), covariance-inl.hpp:4054-4055. -/
noncomputable def e31 (e : Env) : ℝ :=
  e.nx * (e.ny * (e.ca - e.ry2 * e.cam1 / e.a2) - e.nx * (e.rz * e.sa / e.a + e.rxry * e.cam1 / e.a2) + e.nz * (e.rx * e.sa / e.a
  - e.ryrz * e.cam1 / e.a2))

/-- Entry (3, 2), covariance-inl.hpp:4056-4057. -/
noncomputable def e32 (e : Env) : ℝ :=
  e.nx * (e.nz * (e.ca - e.rz2 * e.cam1 / e.a2) + e.nx * (e.ry * e.sa / e.a - e.rxrz * e.cam1 / e.a2) - e.ny * (e.rx * e.sa / e.a
  + e.ryrz * e.cam1 / e.a2))

/-- Entry (3, 3), covariance-inl.hpp:4058-4058. -/
noncomputable def e33 (e : Env) : ℝ :=
  -e.nx2

/-- Entry (3, 4), covariance-inl.hpp:4059-4059. -/
noncomputable def e34 (e : Env) : ℝ :=
  -e.nx * e.ny

/-- Entry (3, 5), covariance-inl.hpp:4060-4060. -/
noncomputable def e35 (e : Env) : ℝ :=
  -e.nx * e.nz

/-- Entry (4, 0), covariance-inl.hpp:4061-4062. -/
noncomputable def e40 (e : Env) : ℝ :=
  e.ny * (e.nx * (e.ca - e.rx2 * e.cam1 / e.a2) + e.ny * (e.rz * e.sa / e.a - e.rxry * e.cam1 / e.a2) - e.nz * (e.ry * e.sa / e.a
  + e.rxrz * e.cam1 / e.a2))

/-- Entry (4, 1), covariance-inl.hpp:4063-4064. -/
noncomputable def e41 (e : Env) : ℝ :=
  e.ny * (e.ny * (e.ca - e.ry2 * e.cam1 / e.a2) - e.nx * (e.rz * e.sa / e.a + e.rxry * e.cam1 / e.a2) + e.nz * (e.rx * e.sa / e.a
  - e.ryrz * e.cam1 / e.a2))

/-- Entry (4, 2), covariance-inl.hpp:4065-4066. -/
noncomputable def e42 (e : Env) : ℝ :=
  e.ny * (e.nz * (e.ca - e.rz2 * e.cam1 / e.a2) + e.nx * (e.ry * e.sa / e.a - e.rxrz * e.cam1 / e.a2) - e.ny * (e.rx * e.sa / e.a
  + e.ryrz * e.cam1 / e.a2))

/-- Entry (4, 3), covariance-inl.hpp:4067-4067. -/
noncomputable def e43 (e : Env) : ℝ :=
  -e.nx * e.ny

/-- Entry (4, 4), covariance-inl.hpp:4068-4068. -/
noncomputable def e44 (e : Env) : ℝ :=
  -e.ny2

/-- Entry (4, 5), covariance-inl.hpp:4069-4069. -/
noncomputable def e45 (e : Env) : ℝ :=
  -e.ny * e.nz

/-- Entry (5, 0), covariance-inl.hpp:4070-4071. -/
noncomputable def e50 (e : Env) : ℝ :=
  e.nz * (e.nx * (e.ca - e.rx2 * e.cam1 / e.a2) + e.ny * (e.rz * e.sa / e.a - e.rxry * e.cam1 / e.a2) - e.nz * (e.ry * e.sa / e.a
  + e.rxrz * e.cam1 / e.a2))

/-- Entry (5, 1), covariance-inl.hpp:4072-4073. -/
noncomputable def e51 (e : Env) : ℝ :=
  e.nz * (e.ny * (e.ca - e.ry2 * e.cam1 / e.a2) - e.nx * (e.rz * e.sa / e.a + e.rxry * e.cam1 / e.a2) + e.nz * (e.rx * e.sa / e.a
  - e.ryrz * e.cam1 / e.a2))

/-- Entry (5, 2), covariance-inl.hpp:4074-4075. -/
noncomputable def e52 (e : Env) : ℝ :=
  e.nz * (e.nz * (e.ca - e.rz2 * e.cam1 / e.a2) + e.nx * (e.ry * e.sa / e.a - e.rxrz * e.cam1 / e.a2) - e.ny * (e.rx * e.sa / e.a
  + e.ryrz * e.cam1 / e.a2))

/-- Entry (5, 3), covariance-inl.hpp:4076-4076. -/
noncomputable def e53 (e : Env) : ℝ :=
  -e.nx * e.nz

/-- Entry (5, 4), covariance-inl.hpp:4077-4077. -/
noncomputable def e54 (e : Env) : ℝ :=
  -e.ny * e.nz

/-- Entry (5, 5), covariance-inl.hpp:4078-4078. -/
noncomputable def e55 (e : Env) : ℝ :=
  -e.nz2

/-- The matrix, covariance-inl.hpp:3334-4080. -/
noncomputable def matrix (e : Env) : Mat6 ℝ :=
  fromBlocks (of ![![e00 e, e01 e, e02 e], ![e10 e, e11 e, e12 e], ![e20 e, e21 e, e22 e]])
    (of ![![e03 e, e04 e, e05 e], ![e13 e, e14 e, e15 e], ![e23 e, e24 e, e25 e]])
    (of ![![e30 e, e31 e, e32 e], ![e40 e, e41 e, e42 e], ![e50 e, e51 e, e52 e]])
    (of ![![e33 e, e34 e, e35 e], ![e43 e, e44 e, e45 e], ![e53 e, e54 e, e55 e]])

end PlaneDzdx

end Lidar

end Serpent
