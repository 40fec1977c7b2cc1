import Verif.Model.IcpEnv

/-!
# Model of `PointToPlaneIcpNonlinearModel::compute_half_d2F_dx2`

covariance-inl.hpp:1909-3332, one definition for each entry of the matrix.
-/

namespace Serpent

namespace Lidar

namespace PlaneDx2

open Matrix EigenExt

/-- Entry (0, 0), covariance-inl.hpp:1978-2079. -/
noncomputable def e00 (e : Env) : ℝ :=
  (e.nx * (e.a2 * e.tx - e.a2 * e.qx + e.px * e.rx2 - e.ca * e.px * e.rx2 + e.py * e.rxry + e.pz * e.rxrz + e.a2 * e.ca * e.px -
  e.a * e.py * e.rz * e.sa + e.a * e.pz * e.ry * e.sa - e.ca * e.py * e.rxry - e.ca * e.pz * e.rxrz) / e.a2 + e.ny * (e.a2 * e.ty
  - e.a2 * e.qy + e.py * e.ry2 - e.ca * e.py * e.ry2 + e.px * e.rxry + e.pz * e.ryrz + e.a2 * e.ca * e.py + e.a * e.px * e.rz *
  e.sa - e.a * e.pz * e.rx * e.sa - e.ca * e.px * e.rxry - e.ca * e.pz * e.ryrz) / e.a2 + e.nz * (e.a2 * e.tz - e.a2 * e.qz + e.pz
  * e.rz2 - e.ca * e.pz * e.rz2 + e.px * e.rxrz + e.py * e.ryrz + e.a2 * e.ca * e.pz - e.a * e.px * e.ry * e.sa + e.a * e.py *
  e.rx * e.sa - e.ca * e.px * e.rxrz - e.ca * e.py * e.ryrz) / e.a2) * (2 * e.nx * (e.py * (8 * e.rx3ry - 6 * e.a2 * e.rxry + e.a3
  * e.rz * e.sa - 8 * e.ca * e.rx3ry - e.a4 * e.ca * e.rz + 6 * e.a2 * e.ca * e.rxry - 5 * e.a * e.rx3ry * e.sa + 3 * e.a3 *
  e.rxry * e.sa - 3 * e.a * e.rx2rz * e.sa + e.a2 * e.ca * e.rx3ry + 3 * e.a2 * e.ca * e.rx2rz + e.a3 * e.rx2rz * e.sa) / e.a6 +
  e.pz * (8 * e.rx3rz - 6 * e.a2 * e.rxrz - e.a3 * e.ry * e.sa - 8 * e.ca * e.rx3rz + e.a4 * e.ca * e.ry + 6 * e.a2 * e.ca *
  e.rxrz + 3 * e.a * e.rx2ry * e.sa - 5 * e.a * e.rx3rz * e.sa + 3 * e.a3 * e.rxrz * e.sa - 3 * e.a2 * e.ca * e.rx2ry + e.a2 *
  e.ca * e.rx3rz - e.a3 * e.rx2ry * e.sa) / e.a6 - e.px * (e.a2 - e.rx2) * (2 * e.a2 * e.ca + e.a3 * e.sa - 8 * e.ca * e.rx2 - 2 *
  e.a2 + 8 * e.rx2 - 5 * e.a * e.rx2 * e.sa + e.a2 * e.ca * e.rx2) / e.a6) + 2 * e.ny * (e.pz * (3 * e.a3 * e.rx * e.sa - 3 * e.a
  * e.rx3 * e.sa - 2 * e.a2 * e.ryrz + 8 * e.rx2ryrz + 3 * e.a2 * e.ca * e.rx3 + e.a3 * e.rx3 * e.sa - 3 * e.a4 * e.ca * e.rx + 2
  * e.a2 * e.ca * e.ryrz + e.a3 * e.ryrz * e.sa - 8 * e.ca * e.rx2ryrz + e.a2 * e.ca * e.rx2ryrz - 5 * e.a * e.rx2ryrz * e.sa) /
  e.a6 + e.py * (8 * e.rx2ry2 - e.a5 * e.sa - 2 * e.a2 * e.ry2 - e.a4 * e.ca * e.rx2 + 2 * e.a2 * e.ca * e.ry2 + e.a3 * e.rx2 *
  e.sa + e.a3 * e.ry2 * e.sa - 8 * e.ca * e.rx2ry2 + e.a2 * e.ca * e.rx2ry2 - 5 * e.a * e.rx2ry2 * e.sa) / e.a6 + e.px * (8 *
  e.rx3ry - 6 * e.a2 * e.rxry - e.a3 * e.rz * e.sa - 8 * e.ca * e.rx3ry + e.a4 * e.ca * e.rz + 6 * e.a2 * e.ca * e.rxry - 5 * e.a
  * e.rx3ry * e.sa + 3 * e.a3 * e.rxry * e.sa + 3 * e.a * e.rx2rz * e.sa + e.a2 * e.ca * e.rx3ry - 3 * e.a2 * e.ca * e.rx2rz -
  e.a3 * e.rx2rz * e.sa) / e.a6) + 2 * e.nz * (e.pz * (8 * e.rx2rz2 - e.a5 * e.sa - 2 * e.a2 * e.rz2 - e.a4 * e.ca * e.rx2 + 2 *
  e.a2 * e.ca * e.rz2 + e.a3 * e.rx2 * e.sa + e.a3 * e.rz2 * e.sa - 8 * e.ca * e.rx2rz2 + e.a2 * e.ca * e.rx2rz2 - 5 * e.a *
  e.rx2rz2 * e.sa) / e.a6 - e.py * (2 * e.a2 * e.ryrz - 3 * e.a * e.rx3 * e.sa + 3 * e.a3 * e.rx * e.sa - 8 * e.rx2ryrz + 3 * e.a2
  * e.ca * e.rx3 + e.a3 * e.rx3 * e.sa - 3 * e.a4 * e.ca * e.rx - 2 * e.a2 * e.ca * e.ryrz - e.a3 * e.ryrz * e.sa + 8 * e.ca *
  e.rx2ryrz - e.a2 * e.ca * e.rx2ryrz + 5 * e.a * e.rx2ryrz * e.sa) / e.a6 + e.px * (8 * e.rx3rz - 6 * e.a2 * e.rxrz + e.a3 * e.ry
  * e.sa - 8 * e.ca * e.rx3rz - e.a4 * e.ca * e.ry + 6 * e.a2 * e.ca * e.rxrz - 3 * e.a * e.rx2ry * e.sa - 5 * e.a * e.rx3rz *
  e.sa + 3 * e.a3 * e.rxrz * e.sa + 3 * e.a2 * e.ca * e.rx2ry + e.a2 * e.ca * e.rx3rz + e.a3 * e.rx2ry * e.sa) / e.a6)) / 2 + (2 *
  e.nx * (e.py * (e.a2 * e.ry - 2 * e.rx2ry + 2 * e.ca * e.rx2ry - e.a2 * e.ca * e.ry + e.a * e.rxrz * e.sa - e.a2 * e.ca * e.rxrz
  + e.a * e.rx2ry * e.sa) / e.a4 + e.pz * (e.a2 * e.rz - 2 * e.rx2rz + 2 * e.ca * e.rx2rz - e.a2 * e.ca * e.rz - e.a * e.rxry *
  e.sa + e.a2 * e.ca * e.rxry + e.a * e.rx2rz * e.sa) / e.a4 - e.px * e.rx * (e.a2 - e.rx2) * (2 * e.ca + e.a * e.sa - 2) / e.a4)
  + 2 * e.ny * (e.px * e.ry * (e.rx2 + e.ry2 + e.rz2) - 2 * e.px * e.rx2ry - 2 * e.py * e.rxry2 - e.a3 * e.pz * e.sa - 2 * e.pz *
  e.rxryrz - e.a3 * e.py * e.rx * e.sa + e.a * e.pz * e.rx2 * e.sa + 2 * e.ca * e.px * e.rx2ry + 2 * e.ca * e.py * e.rxry2 - e.ca
  * e.px * e.ry * (e.rx2 + e.ry2 + e.rz2) - e.ca * e.pz * e.rx2 * (e.rx2 + e.ry2 + e.rz2) - e.a * e.px * e.rxrz * e.sa + 2 * e.ca
  * e.pz * e.rxryrz + e.a * e.px * e.rx2ry * e.sa + e.a * e.py * e.rxry2 * e.sa + e.ca * e.px * e.rxrz * (e.rx2 + e.ry2 + e.rz2) +
  e.a * e.pz * e.rxryrz * e.sa) / e.a4 + 2 * e.nz * (e.a3 * e.py * e.sa - 2 * e.px * e.rx2rz - 2 * e.pz * e.rxrz2 + e.px * e.rz *
  (e.rx2 + e.ry2 + e.rz2) - 2 * e.py * e.rxryrz - e.a * e.py * e.rx2 * e.sa - e.a3 * e.pz * e.rx * e.sa + 2 * e.ca * e.px *
  e.rx2rz + 2 * e.ca * e.pz * e.rxrz2 - e.ca * e.px * e.rz * (e.rx2 + e.ry2 + e.rz2) + e.ca * e.py * e.rx2 * (e.rx2 + e.ry2 +
  e.rz2) + e.a * e.px * e.rxry * e.sa + 2 * e.ca * e.py * e.rxryrz + e.a * e.px * e.rx2rz * e.sa + e.a * e.pz * e.rxrz2 * e.sa -
  e.ca * e.px * e.rxry * (e.rx2 + e.ry2 + e.rz2) + e.a * e.py * e.rxryrz * e.sa) / e.a4) * (e.a3 * e.nz * e.py * e.sa - e.a3 *
  e.ny * e.pz * e.sa - 2 * e.nx * e.px * e.rx3 + 2 * e.ca * e.nx * e.px * e.rx3 - 2 * e.nx * e.py * e.rx2ry - 2 * e.ny * e.px *
  e.rx2ry - 2 * e.ny * e.py * e.rxry2 - 2 * e.nx * e.pz * e.rx2rz - 2 * e.nz * e.px * e.rx2rz - 2 * e.nz * e.pz * e.rxrz2 + 2 *
  e.nx * e.px * e.rx * (e.rx2 + e.ry2 + e.rz2) + e.nx * e.py * e.ry * (e.rx2 + e.ry2 + e.rz2) + e.ny * e.px * e.ry * (e.rx2 +
  e.ry2 + e.rz2) + e.nx * e.pz * e.rz * (e.rx2 + e.ry2 + e.rz2) + e.nz * e.px * e.rz * (e.rx2 + e.ry2 + e.rz2) - e.ca * e.ny *
  e.pz * e.rx2 * (e.rx2 + e.ry2 + e.rz2) + e.ca * e.nz * e.py * e.rx2 * (e.rx2 + e.ry2 + e.rz2) - 2 * e.ny * e.pz * e.rxryrz - 2 *
  e.nz * e.py * e.rxryrz + e.a * e.nx * e.px * e.rx3 * e.sa - e.a3 * e.nx * e.px * e.rx * e.sa - e.a3 * e.ny * e.py * e.rx * e.sa
  + e.a * e.ny * e.pz * e.rx2 * e.sa - e.a * e.nz * e.py * e.rx2 * e.sa - e.a3 * e.nz * e.pz * e.rx * e.sa + 2 * e.ca * e.nx *
  e.py * e.rx2ry + 2 * e.ca * e.ny * e.px * e.rx2ry + 2 * e.ca * e.ny * e.py * e.rxry2 + 2 * e.ca * e.nx * e.pz * e.rx2rz + 2 *
  e.ca * e.nz * e.px * e.rx2rz + 2 * e.ca * e.nz * e.pz * e.rxrz2 - 2 * e.ca * e.nx * e.px * e.rx * (e.rx2 + e.ry2 + e.rz2) - e.ca
  * e.nx * e.py * e.ry * (e.rx2 + e.ry2 + e.rz2) - e.ca * e.ny * e.px * e.ry * (e.rx2 + e.ry2 + e.rz2) - e.ca * e.nx * e.pz * e.rz
  * (e.rx2 + e.ry2 + e.rz2) - e.ca * e.nz * e.px * e.rz * (e.rx2 + e.ry2 + e.rz2) + e.a * e.nx * e.py * e.rx2ry * e.sa + e.a *
  e.ny * e.px * e.rx2ry * e.sa + e.a * e.ny * e.py * e.rxry2 * e.sa + e.a * e.nx * e.pz * e.rx2rz * e.sa + e.a * e.nz * e.px *
  e.rx2rz * e.sa + e.a * e.nz * e.pz * e.rxrz2 * e.sa - e.ca * e.nx * e.py * e.rxrz * (e.rx2 + e.ry2 + e.rz2) + e.ca * e.nx * e.pz
  * e.rxry * (e.rx2 + e.ry2 + e.rz2) + e.ca * e.ny * e.px * e.rxrz * (e.rx2 + e.ry2 + e.rz2) - e.ca * e.nz * e.px * e.rxry *
  (e.rx2 + e.ry2 + e.rz2) + e.a * e.nx * e.py * e.rxrz * e.sa - e.a * e.nx * e.pz * e.rxry * e.sa - e.a * e.ny * e.px * e.rxrz *
  e.sa + e.a * e.nz * e.px * e.rxry * e.sa + 2 * e.ca * e.ny * e.pz * e.rxryrz + 2 * e.ca * e.nz * e.py * e.rxryrz + e.a * e.ny *
  e.pz * e.rxryrz * e.sa + e.a * e.nz * e.py * e.rxryrz * e.sa) / (2 * e.a4)

/-- Entry (0, 1), covariance-inl.hpp:2080-2180. -/
noncomputable def e01 (e : Env) : ℝ :=
  (2 * e.nx * (e.py * (8 * e.rx2ry2 - e.a4 * e.ca + e.a4 - 2 * e.a2 * e.rx2 - 2 * e.a2 * e.ry2 + 2 * e.a2 * e.ca * e.rx2 + 2 *
  e.a2 * e.ca * e.ry2 + e.a3 * e.rx2 * e.sa + e.a3 * e.ry2 * e.sa - 8 * e.ca * e.rx2ry2 + e.a2 * e.ca * e.rx2ry2 - 5 * e.a *
  e.rx2ry2 * e.sa - 3 * e.a * e.rxryrz * e.sa + 3 * e.a2 * e.ca * e.rxryrz + e.a3 * e.rxryrz * e.sa) / e.a6 - e.pz * (2 * e.a2 *
  e.ryrz + e.a3 * e.rx * e.sa - 8 * e.rx2ryrz - e.a4 * e.ca * e.rx - 2 * e.a2 * e.ca * e.ryrz - 3 * e.a * e.rxry2 * e.sa - e.a3 *
  e.ryrz * e.sa + 8 * e.ca * e.rx2ryrz + 3 * e.a2 * e.ca * e.rxry2 + e.a3 * e.rxry2 * e.sa - e.a2 * e.ca * e.rx2ryrz + 5 * e.a *
  e.rx2ryrz * e.sa) / e.a6 + e.px * e.rxry * (4 * e.a2 * e.ca - e.a4 * e.ca + 3 * e.a3 * e.sa - 8 * e.ca * e.rx2 - 4 * e.a2 + 8 *
  e.rx2 - 5 * e.a * e.rx2 * e.sa + e.a2 * e.ca * e.rx2) / e.a6) + 2 * e.ny * (e.px * (8 * e.rx2ry2 - e.a4 * e.ca + e.a4 - 2 * e.a2
  * e.rx2 - 2 * e.a2 * e.ry2 + 2 * e.a2 * e.ca * e.rx2 + 2 * e.a2 * e.ca * e.ry2 + e.a3 * e.rx2 * e.sa + e.a3 * e.ry2 * e.sa - 8 *
  e.ca * e.rx2ry2 + e.a2 * e.ca * e.rx2ry2 - 5 * e.a * e.rx2ry2 * e.sa + 3 * e.a * e.rxryrz * e.sa - 3 * e.a2 * e.ca * e.rxryrz -
  e.a3 * e.rxryrz * e.sa) / e.a6 + e.pz * (e.a3 * e.ry * e.sa - 2 * e.a2 * e.rxrz + 8 * e.rxry2rz - e.a4 * e.ca * e.ry + 2 * e.a2
  * e.ca * e.rxrz - 3 * e.a * e.rx2ry * e.sa + e.a3 * e.rxrz * e.sa - 8 * e.ca * e.rxry2rz + 3 * e.a2 * e.ca * e.rx2ry + e.a3 *
  e.rx2ry * e.sa + e.a2 * e.ca * e.rxry2rz - 5 * e.a * e.rxry2rz * e.sa) / e.a6 + e.py * e.rxry * (4 * e.a2 * e.ca - e.a4 * e.ca +
  3 * e.a3 * e.sa - 8 * e.ca * e.ry2 - 4 * e.a2 + 8 * e.ry2 - 5 * e.a * e.ry2 * e.sa + e.a2 * e.ca * e.ry2) / e.a6) + 2 * e.nz *
  (e.a4 * e.ca * e.py * e.ry - e.a4 * e.ca * e.px * e.rx + e.a3 * e.px * e.rx * e.sa - e.a3 * e.py * e.ry * e.sa + 8 * e.px *
  e.rx2ryrz + 8 * e.py * e.rxry2rz + 8 * e.pz * e.rxryrz2 - 2 * e.px * e.ryrz * (e.rx2 + e.ry2 + e.rz2) - 2 * e.py * e.rxrz *
  (e.rx2 + e.ry2 + e.rz2) + e.a3 * e.px * e.rxry2 * e.sa - e.a3 * e.py * e.rx2ry * e.sa + 3 * e.ca * e.px * e.rxry2 * (e.rx2 +
  e.ry2 + e.rz2) - 3 * e.ca * e.py * e.rx2ry * (e.rx2 + e.ry2 + e.rz2) - e.a4 * e.ca * e.pz * e.rxry - 3 * e.a * e.px * e.rxry2 *
  e.sa + 3 * e.a * e.py * e.rx2ry * e.sa + e.a3 * e.px * e.ryrz * e.sa + e.a3 * e.py * e.rxrz * e.sa + e.a3 * e.pz * e.rxry * e.sa
  - 8 * e.ca * e.px * e.rx2ryrz - 8 * e.ca * e.py * e.rxry2rz - 8 * e.ca * e.pz * e.rxryrz2 + 2 * e.ca * e.px * e.ryrz * (e.rx2 +
  e.ry2 + e.rz2) + 2 * e.ca * e.py * e.rxrz * (e.rx2 + e.ry2 + e.rz2) - 5 * e.a * e.px * e.rx2ryrz * e.sa - 5 * e.a * e.py *
  e.rxry2rz * e.sa - 5 * e.a * e.pz * e.rxryrz2 * e.sa + e.ca * e.px * e.rx2ryrz * (e.rx2 + e.ry2 + e.rz2) + e.ca * e.py *
  e.rxry2rz * (e.rx2 + e.ry2 + e.rz2) + e.ca * e.pz * e.rxryrz2 * (e.rx2 + e.ry2 + e.rz2)) / e.a6) * (e.nx * (e.a2 * e.tx - e.a2 *
  e.qx + e.px * e.rx2 - e.ca * e.px * e.rx2 + e.py * e.rxry + e.pz * e.rxrz + e.a2 * e.ca * e.px - e.a * e.py * e.rz * e.sa + e.a
  * e.pz * e.ry * e.sa - e.ca * e.py * e.rxry - e.ca * e.pz * e.rxrz) / e.a2 + e.ny * (e.a2 * e.ty - e.a2 * e.qy + e.py * e.ry2 -
  e.ca * e.py * e.ry2 + e.px * e.rxry + e.pz * e.ryrz + e.a2 * e.ca * e.py + e.a * e.px * e.rz * e.sa - e.a * e.pz * e.rx * e.sa -
  e.ca * e.px * e.rxry - e.ca * e.pz * e.ryrz) / e.a2 + e.nz * (e.a2 * e.tz - e.a2 * e.qz + e.pz * e.rz2 - e.ca * e.pz * e.rz2 +
  e.px * e.rxrz + e.py * e.ryrz + e.a2 * e.ca * e.pz - e.a * e.px * e.ry * e.sa + e.a * e.py * e.rx * e.sa - e.ca * e.px * e.rxrz
  - e.ca * e.py * e.ryrz) / e.a2) / 2 + (2 * e.nx * (e.py * (e.a2 * e.ry - 2 * e.rx2ry + 2 * e.ca * e.rx2ry - e.a2 * e.ca * e.ry +
  e.a * e.rxrz * e.sa - e.a2 * e.ca * e.rxrz + e.a * e.rx2ry * e.sa) / e.a4 + e.pz * (e.a2 * e.rz - 2 * e.rx2rz + 2 * e.ca *
  e.rx2rz - e.a2 * e.ca * e.rz - e.a * e.rxry * e.sa + e.a2 * e.ca * e.rxry + e.a * e.rx2rz * e.sa) / e.a4 - e.px * e.rx * (e.a2 -
  e.rx2) * (2 * e.ca + e.a * e.sa - 2) / e.a4) + 2 * e.ny * (e.px * e.ry * (e.rx2 + e.ry2 + e.rz2) - 2 * e.px * e.rx2ry - 2 * e.py
  * e.rxry2 - e.a3 * e.pz * e.sa - 2 * e.pz * e.rxryrz - e.a3 * e.py * e.rx * e.sa + e.a * e.pz * e.rx2 * e.sa + 2 * e.ca * e.px *
  e.rx2ry + 2 * e.ca * e.py * e.rxry2 - e.ca * e.px * e.ry * (e.rx2 + e.ry2 + e.rz2) - e.ca * e.pz * e.rx2 * (e.rx2 + e.ry2 +
  e.rz2) - e.a * e.px * e.rxrz * e.sa + 2 * e.ca * e.pz * e.rxryrz + e.a * e.px * e.rx2ry * e.sa + e.a * e.py * e.rxry2 * e.sa +
  e.ca * e.px * e.rxrz * (e.rx2 + e.ry2 + e.rz2) + e.a * e.pz * e.rxryrz * e.sa) / e.a4 + 2 * e.nz * (e.a3 * e.py * e.sa - 2 *
  e.px * e.rx2rz - 2 * e.pz * e.rxrz2 + e.px * e.rz * (e.rx2 + e.ry2 + e.rz2) - 2 * e.py * e.rxryrz - e.a * e.py * e.rx2 * e.sa -
  e.a3 * e.pz * e.rx * e.sa + 2 * e.ca * e.px * e.rx2rz + 2 * e.ca * e.pz * e.rxrz2 - e.ca * e.px * e.rz * (e.rx2 + e.ry2 + e.rz2)
  + e.ca * e.py * e.rx2 * (e.rx2 + e.ry2 + e.rz2) + e.a * e.px * e.rxry * e.sa + 2 * e.ca * e.py * e.rxryrz + e.a * e.px * e.rx2rz
  * e.sa + e.a * e.pz * e.rxrz2 * e.sa - e.ca * e.px * e.rxry * (e.rx2 + e.ry2 + e.rz2) + e.a * e.py * e.rxryrz * e.sa) / e.a4) *
  (e.a3 * e.nx * e.pz * e.sa - 2 * e.ny * e.py * e.ry3 - e.a3 * e.nz * e.px * e.sa + 2 * e.ca * e.ny * e.py * e.ry3 - 2 * e.nx *
  e.px * e.rx2ry - 2 * e.nx * e.py * e.rxry2 - 2 * e.ny * e.px * e.rxry2 - 2 * e.ny * e.pz * e.ry2rz - 2 * e.nz * e.py * e.ry2rz -
  2 * e.nz * e.pz * e.ryrz2 + e.nx * e.py * e.rx * (e.rx2 + e.ry2 + e.rz2) + e.ny * e.px * e.rx * (e.rx2 + e.ry2 + e.rz2) + 2 *
  e.ny * e.py * e.ry * (e.rx2 + e.ry2 + e.rz2) + e.ny * e.pz * e.rz * (e.rx2 + e.ry2 + e.rz2) + e.nz * e.py * e.rz * (e.rx2 +
  e.ry2 + e.rz2) + e.ca * e.nx * e.pz * e.ry2 * (e.rx2 + e.ry2 + e.rz2) - e.ca * e.nz * e.px * e.ry2 * (e.rx2 + e.ry2 + e.rz2) - 2
  * e.nx * e.pz * e.rxryrz - 2 * e.nz * e.px * e.rxryrz - e.a3 * e.nx * e.px * e.ry * e.sa - e.a * e.nx * e.pz * e.ry2 * e.sa +
  e.a * e.nz * e.px * e.ry2 * e.sa + e.a * e.ny * e.py * e.ry3 * e.sa - e.a3 * e.ny * e.py * e.ry * e.sa - e.a3 * e.nz * e.pz *
  e.ry * e.sa + 2 * e.ca * e.nx * e.px * e.rx2ry + 2 * e.ca * e.nx * e.py * e.rxry2 + 2 * e.ca * e.ny * e.px * e.rxry2 + 2 * e.ca
  * e.ny * e.pz * e.ry2rz + 2 * e.ca * e.nz * e.py * e.ry2rz + 2 * e.ca * e.nz * e.pz * e.ryrz2 - e.ca * e.nx * e.py * e.rx *
  (e.rx2 + e.ry2 + e.rz2) - e.ca * e.ny * e.px * e.rx * (e.rx2 + e.ry2 + e.rz2) - 2 * e.ca * e.ny * e.py * e.ry * (e.rx2 + e.ry2 +
  e.rz2) - e.ca * e.ny * e.pz * e.rz * (e.rx2 + e.ry2 + e.rz2) - e.ca * e.nz * e.py * e.rz * (e.rx2 + e.ry2 + e.rz2) + e.a * e.nx
  * e.px * e.rx2ry * e.sa + e.a * e.nx * e.py * e.rxry2 * e.sa + e.a * e.ny * e.px * e.rxry2 * e.sa + e.a * e.ny * e.pz * e.ry2rz
  * e.sa + e.a * e.nz * e.py * e.ry2rz * e.sa + e.a * e.nz * e.pz * e.ryrz2 * e.sa - e.ca * e.nx * e.py * e.ryrz * (e.rx2 + e.ry2
  + e.rz2) + e.ca * e.ny * e.px * e.ryrz * (e.rx2 + e.ry2 + e.rz2) - e.ca * e.ny * e.pz * e.rxry * (e.rx2 + e.ry2 + e.rz2) + e.ca
  * e.nz * e.py * e.rxry * (e.rx2 + e.ry2 + e.rz2) + e.a * e.nx * e.py * e.ryrz * e.sa - e.a * e.ny * e.px * e.ryrz * e.sa + e.a *
  e.ny * e.pz * e.rxry * e.sa - e.a * e.nz * e.py * e.rxry * e.sa + 2 * e.ca * e.nx * e.pz * e.rxryrz + 2 * e.ca * e.nz * e.px *
  e.rxryrz + e.a * e.nx * e.pz * e.rxryrz * e.sa + e.a * e.nz * e.px * e.rxryrz * e.sa) / (2 * e.a4)

/-- Entry (0, 2), covariance-inl.hpp:2181-2281. -/
noncomputable def e02 (e : Env) : ℝ :=
  (2 * e.nx * (e.pz * (8 * e.rx2rz2 - e.a4 * e.ca + e.a4 - 2 * e.a2 * e.rx2 - 2 * e.a2 * e.rz2 + 2 * e.a2 * e.ca * e.rx2 + 2 *
  e.a2 * e.ca * e.rz2 + e.a3 * e.rx2 * e.sa + e.a3 * e.rz2 * e.sa - 8 * e.ca * e.rx2rz2 + e.a2 * e.ca * e.rx2rz2 - 5 * e.a *
  e.rx2rz2 * e.sa + 3 * e.a * e.rxryrz * e.sa - 3 * e.a2 * e.ca * e.rxryrz - e.a3 * e.rxryrz * e.sa) / e.a6 + e.py * (e.a3 * e.rx
  * e.sa - 2 * e.a2 * e.ryrz + 8 * e.rx2ryrz - e.a4 * e.ca * e.rx + 2 * e.a2 * e.ca * e.ryrz - 3 * e.a * e.rxrz2 * e.sa + e.a3 *
  e.ryrz * e.sa - 8 * e.ca * e.rx2ryrz + 3 * e.a2 * e.ca * e.rxrz2 + e.a3 * e.rxrz2 * e.sa + e.a2 * e.ca * e.rx2ryrz - 5 * e.a *
  e.rx2ryrz * e.sa) / e.a6 + e.px * e.rxrz * (4 * e.a2 * e.ca - e.a4 * e.ca + 3 * e.a3 * e.sa - 8 * e.ca * e.rx2 - 4 * e.a2 + 8 *
  e.rx2 - 5 * e.a * e.rx2 * e.sa + e.a2 * e.ca * e.rx2) / e.a6) + 2 * e.nz * (e.px * (8 * e.rx2rz2 - e.a4 * e.ca + e.a4 - 2 * e.a2
  * e.rx2 - 2 * e.a2 * e.rz2 + 2 * e.a2 * e.ca * e.rx2 + 2 * e.a2 * e.ca * e.rz2 + e.a3 * e.rx2 * e.sa + e.a3 * e.rz2 * e.sa - 8 *
  e.ca * e.rx2rz2 + e.a2 * e.ca * e.rx2rz2 - 5 * e.a * e.rx2rz2 * e.sa - 3 * e.a * e.rxryrz * e.sa + 3 * e.a2 * e.ca * e.rxryrz +
  e.a3 * e.rxryrz * e.sa) / e.a6 - e.py * (2 * e.a2 * e.rxry + e.a3 * e.rz * e.sa - 8 * e.rxryrz2 - e.a4 * e.ca * e.rz - 2 * e.a2
  * e.ca * e.rxry - e.a3 * e.rxry * e.sa - 3 * e.a * e.rx2rz * e.sa + 8 * e.ca * e.rxryrz2 + 3 * e.a2 * e.ca * e.rx2rz + e.a3 *
  e.rx2rz * e.sa - e.a2 * e.ca * e.rxryrz2 + 5 * e.a * e.rxryrz2 * e.sa) / e.a6 + e.pz * e.rxrz * (4 * e.a2 * e.ca - e.a4 * e.ca +
  3 * e.a3 * e.sa - 8 * e.ca * e.rz2 - 4 * e.a2 + 8 * e.rz2 - 5 * e.a * e.rz2 * e.sa + e.a2 * e.ca * e.rz2) / e.a6) + 2 * e.ny *
  (e.a4 * e.ca * e.px * e.rx - e.a4 * e.ca * e.pz * e.rz - e.a3 * e.px * e.rx * e.sa + e.a3 * e.pz * e.rz * e.sa + 8 * e.px *
  e.rx2ryrz + 8 * e.py * e.rxry2rz + 8 * e.pz * e.rxryrz2 - 2 * e.px * e.ryrz * (e.rx2 + e.ry2 + e.rz2) - 2 * e.pz * e.rxry *
  (e.rx2 + e.ry2 + e.rz2) - e.a3 * e.px * e.rxrz2 * e.sa + e.a3 * e.pz * e.rx2rz * e.sa - 3 * e.ca * e.px * e.rxrz2 * (e.rx2 +
  e.ry2 + e.rz2) + 3 * e.ca * e.pz * e.rx2rz * (e.rx2 + e.ry2 + e.rz2) - e.a4 * e.ca * e.py * e.rxrz + 3 * e.a * e.px * e.rxrz2 *
  e.sa + e.a3 * e.px * e.ryrz * e.sa + e.a3 * e.py * e.rxrz * e.sa + e.a3 * e.pz * e.rxry * e.sa - 3 * e.a * e.pz * e.rx2rz * e.sa
  - 8 * e.ca * e.px * e.rx2ryrz - 8 * e.ca * e.py * e.rxry2rz - 8 * e.ca * e.pz * e.rxryrz2 + 2 * e.ca * e.px * e.ryrz * (e.rx2 +
  e.ry2 + e.rz2) + 2 * e.ca * e.pz * e.rxry * (e.rx2 + e.ry2 + e.rz2) - 5 * e.a * e.px * e.rx2ryrz * e.sa - 5 * e.a * e.py *
  e.rxry2rz * e.sa - 5 * e.a * e.pz * e.rxryrz2 * e.sa + e.ca * e.px * e.rx2ryrz * (e.rx2 + e.ry2 + e.rz2) + e.ca * e.py *
  e.rxry2rz * (e.rx2 + e.ry2 + e.rz2) + e.ca * e.pz * e.rxryrz2 * (e.rx2 + e.ry2 + e.rz2)) / e.a6) * (e.nx * (e.a2 * e.tx - e.a2 *
  e.qx + e.px * e.rx2 - e.ca * e.px * e.rx2 + e.py * e.rxry + e.pz * e.rxrz + e.a2 * e.ca * e.px - e.a * e.py * e.rz * e.sa + e.a
  * e.pz * e.ry * e.sa - e.ca * e.py * e.rxry - e.ca * e.pz * e.rxrz) / e.a2 + e.ny * (e.a2 * e.ty - e.a2 * e.qy + e.py * e.ry2 -
  e.ca * e.py * e.ry2 + e.px * e.rxry + e.pz * e.ryrz + e.a2 * e.ca * e.py + e.a * e.px * e.rz * e.sa - e.a * e.pz * e.rx * e.sa -
  e.ca * e.px * e.rxry - e.ca * e.pz * e.ryrz) / e.a2 + e.nz * (e.a2 * e.tz - e.a2 * e.qz + e.pz * e.rz2 - e.ca * e.pz * e.rz2 +
  e.px * e.rxrz + e.py * e.ryrz + e.a2 * e.ca * e.pz - e.a * e.px * e.ry * e.sa + e.a * e.py * e.rx * e.sa - e.ca * e.px * e.rxrz
  - e.ca * e.py * e.ryrz) / e.a2) / 2 + (2 * e.nx * (e.py * (e.a2 * e.ry - 2 * e.rx2ry + 2 * e.ca * e.rx2ry - e.a2 * e.ca * e.ry +
  e.a * e.rxrz * e.sa - e.a2 * e.ca * e.rxrz + e.a * e.rx2ry * e.sa) / e.a4 + e.pz * (e.a2 * e.rz - 2 * e.rx2rz + 2 * e.ca *
  e.rx2rz - e.a2 * e.ca * e.rz - e.a * e.rxry * e.sa + e.a2 * e.ca * e.rxry + e.a * e.rx2rz * e.sa) / e.a4 - e.px * e.rx * (e.a2 -
  e.rx2) * (2 * e.ca + e.a * e.sa - 2) / e.a4) + 2 * e.ny * (e.px * e.ry * (e.rx2 + e.ry2 + e.rz2) - 2 * e.px * e.rx2ry - 2 * e.py
  * e.rxry2 - e.a3 * e.pz * e.sa - 2 * e.pz * e.rxryrz - e.a3 * e.py * e.rx * e.sa + e.a * e.pz * e.rx2 * e.sa + 2 * e.ca * e.px *
  e.rx2ry + 2 * e.ca * e.py * e.rxry2 - e.ca * e.px * e.ry * (e.rx2 + e.ry2 + e.rz2) - e.ca * e.pz * e.rx2 * (e.rx2 + e.ry2 +
  e.rz2) - e.a * e.px * e.rxrz * e.sa + 2 * e.ca * e.pz * e.rxryrz + e.a * e.px * e.rx2ry * e.sa + e.a * e.py * e.rxry2 * e.sa +
  e.ca * e.px * e.rxrz * (e.rx2 + e.ry2 + e.rz2) + e.a * e.pz * e.rxryrz * e.sa) / e.a4 + 2 * e.nz * (e.a3 * e.py * e.sa - 2 *
  e.px * e.rx2rz - 2 * e.pz * e.rxrz2 + e.px * e.rz * (e.rx2 + e.ry2 + e.rz2) - 2 * e.py * e.rxryrz - e.a * e.py * e.rx2 * e.sa -
  e.a3 * e.pz * e.rx * e.sa + 2 * e.ca * e.px * e.rx2rz + 2 * e.ca * e.pz * e.rxrz2 - e.ca * e.px * e.rz * (e.rx2 + e.ry2 + e.rz2)
  + e.ca * e.py * e.rx2 * (e.rx2 + e.ry2 + e.rz2) + e.a * e.px * e.rxry * e.sa + 2 * e.ca * e.py * e.rxryrz + e.a * e.px * e.rx2rz
  * e.sa + e.a * e.pz * e.rxrz2 * e.sa - e.ca * e.px * e.rxry * (e.rx2 + e.ry2 + e.rz2) + e.a * e.py * e.rxryrz * e.sa) / e.a4) *
  (e.a3 * e.ny * e.px * e.sa - e.a3 * e.nx * e.py * e.sa - 2 * e.nz * e.pz * e.rz3 + 2 * e.ca * e.nz * e.pz * e.rz3 - 2 * e.nx *
  e.px * e.rx2rz - 2 * e.nx * e.pz * e.rxrz2 - 2 * e.nz * e.px * e.rxrz2 - 2 * e.ny * e.py * e.ry2rz - 2 * e.ny * e.pz * e.ryrz2 -
  2 * e.nz * e.py * e.ryrz2 + e.nx * e.pz * e.rx * (e.rx2 + e.ry2 + e.rz2) + e.nz * e.px * e.rx * (e.rx2 + e.ry2 + e.rz2) + e.ny *
  e.pz * e.ry * (e.rx2 + e.ry2 + e.rz2) + e.nz * e.py * e.ry * (e.rx2 + e.ry2 + e.rz2) + 2 * e.nz * e.pz * e.rz * (e.rx2 + e.ry2 +
  e.rz2) - e.ca * e.nx * e.py * e.rz2 * (e.rx2 + e.ry2 + e.rz2) + e.ca * e.ny * e.px * e.rz2 * (e.rx2 + e.ry2 + e.rz2) - 2 * e.nx
  * e.py * e.rxryrz - 2 * e.ny * e.px * e.rxryrz - e.a3 * e.nx * e.px * e.rz * e.sa + e.a * e.nx * e.py * e.rz2 * e.sa - e.a *
  e.ny * e.px * e.rz2 * e.sa - e.a3 * e.ny * e.py * e.rz * e.sa + e.a * e.nz * e.pz * e.rz3 * e.sa - e.a3 * e.nz * e.pz * e.rz *
  e.sa + 2 * e.ca * e.nx * e.px * e.rx2rz + 2 * e.ca * e.nx * e.pz * e.rxrz2 + 2 * e.ca * e.nz * e.px * e.rxrz2 + 2 * e.ca * e.ny
  * e.py * e.ry2rz + 2 * e.ca * e.ny * e.pz * e.ryrz2 + 2 * e.ca * e.nz * e.py * e.ryrz2 - e.ca * e.nx * e.pz * e.rx * (e.rx2 +
  e.ry2 + e.rz2) - e.ca * e.nz * e.px * e.rx * (e.rx2 + e.ry2 + e.rz2) - e.ca * e.ny * e.pz * e.ry * (e.rx2 + e.ry2 + e.rz2) -
  e.ca * e.nz * e.py * e.ry * (e.rx2 + e.ry2 + e.rz2) - 2 * e.ca * e.nz * e.pz * e.rz * (e.rx2 + e.ry2 + e.rz2) + e.a * e.nx *
  e.px * e.rx2rz * e.sa + e.a * e.nx * e.pz * e.rxrz2 * e.sa + e.a * e.nz * e.px * e.rxrz2 * e.sa + e.a * e.ny * e.py * e.ry2rz *
  e.sa + e.a * e.ny * e.pz * e.ryrz2 * e.sa + e.a * e.nz * e.py * e.ryrz2 * e.sa + e.ca * e.nx * e.pz * e.ryrz * (e.rx2 + e.ry2 +
  e.rz2) - e.ca * e.ny * e.pz * e.rxrz * (e.rx2 + e.ry2 + e.rz2) - e.ca * e.nz * e.px * e.ryrz * (e.rx2 + e.ry2 + e.rz2) + e.ca *
  e.nz * e.py * e.rxrz * (e.rx2 + e.ry2 + e.rz2) - e.a * e.nx * e.pz * e.ryrz * e.sa + e.a * e.ny * e.pz * e.rxrz * e.sa + e.a *
  e.nz * e.px * e.ryrz * e.sa - e.a * e.nz * e.py * e.rxrz * e.sa + 2 * e.ca * e.nx * e.py * e.rxryrz + 2 * e.ca * e.ny * e.px *
  e.rxryrz + e.a * e.nx * e.py * e.rxryrz * e.sa + e.a * e.ny * e.px * e.rxryrz * e.sa) / (2 * e.a4)

/-- Entry (0, 3), covariance-inl.hpp:2282-2307. -/
noncomputable def e03 (e : Env) : ℝ :=
  e.nx * (2 * e.nx * (e.py * (e.a2 * e.ry - 2 * e.rx2ry + 2 * e.ca * e.rx2ry - e.a2 * e.ca * e.ry + e.a * e.rxrz * e.sa - e.a2 *
  e.ca * e.rxrz + e.a * e.rx2ry * e.sa) / e.a4 + e.pz * (e.a2 * e.rz - 2 * e.rx2rz + 2 * e.ca * e.rx2rz - e.a2 * e.ca * e.rz - e.a
  * e.rxry * e.sa + e.a2 * e.ca * e.rxry + e.a * e.rx2rz * e.sa) / e.a4 - e.px * e.rx * (e.a2 - e.rx2) * (2 * e.ca + e.a * e.sa -
  2) / e.a4) - 2 * e.ny * (e.pz * (e.a3 * e.sa - e.a * e.rx2 * e.sa + e.a2 * e.ca * e.rx2 + 2 * e.rxryrz - 2 * e.ca * e.rxryrz -
  e.a * e.rxryrz * e.sa) / e.a4 - e.px * (e.a2 * e.ry - 2 * e.rx2ry + 2 * e.ca * e.rx2ry - e.a2 * e.ca * e.ry - e.a * e.rxrz *
  e.sa + e.a2 * e.ca * e.rxrz + e.a * e.rx2ry * e.sa) / e.a4 + e.py * e.rx * (e.a3 * e.sa - 2 * e.ca * e.ry2 + 2 * e.ry2 - e.a *
  e.ry2 * e.sa) / e.a4) + 2 * e.nz * (e.px * (e.a2 * e.rz - 2 * e.rx2rz + 2 * e.ca * e.rx2rz - e.a2 * e.ca * e.rz + e.a * e.rxry *
  e.sa - e.a2 * e.ca * e.rxry + e.a * e.rx2rz * e.sa) / e.a4 + e.py * (e.a3 * e.sa - e.a * e.rx2 * e.sa + e.a2 * e.ca * e.rx2 - 2
  * e.rxryrz + 2 * e.ca * e.rxryrz + e.a * e.rxryrz * e.sa) / e.a4 - e.pz * e.rx * (e.a3 * e.sa - 2 * e.ca * e.rz2 + 2 * e.rz2 -
  e.a * e.rz2 * e.sa) / e.a4)) / 2

/-- Entry (0, 4), covariance-inl.hpp:2308-2333. -/
noncomputable def e04 (e : Env) : ℝ :=
  e.ny * (2 * e.nx * (e.py * (e.a2 * e.ry - 2 * e.rx2ry + 2 * e.ca * e.rx2ry - e.a2 * e.ca * e.ry + e.a * e.rxrz * e.sa - e.a2 *
  e.ca * e.rxrz + e.a * e.rx2ry * e.sa) / e.a4 + e.pz * (e.a2 * e.rz - 2 * e.rx2rz + 2 * e.ca * e.rx2rz - e.a2 * e.ca * e.rz - e.a
  * e.rxry * e.sa + e.a2 * e.ca * e.rxry + e.a * e.rx2rz * e.sa) / e.a4 - e.px * e.rx * (e.a2 - e.rx2) * (2 * e.ca + e.a * e.sa -
  2) / e.a4) - 2 * e.ny * (e.pz * (e.a3 * e.sa - e.a * e.rx2 * e.sa + e.a2 * e.ca * e.rx2 + 2 * e.rxryrz - 2 * e.ca * e.rxryrz -
  e.a * e.rxryrz * e.sa) / e.a4 - e.px * (e.a2 * e.ry - 2 * e.rx2ry + 2 * e.ca * e.rx2ry - e.a2 * e.ca * e.ry - e.a * e.rxrz *
  e.sa + e.a2 * e.ca * e.rxrz + e.a * e.rx2ry * e.sa) / e.a4 + e.py * e.rx * (e.a3 * e.sa - 2 * e.ca * e.ry2 + 2 * e.ry2 - e.a *
  e.ry2 * e.sa) / e.a4) + 2 * e.nz * (e.px * (e.a2 * e.rz - 2 * e.rx2rz + 2 * e.ca * e.rx2rz - e.a2 * e.ca * e.rz + e.a * e.rxry *
  e.sa - e.a2 * e.ca * e.rxry + e.a * e.rx2rz * e.sa) / e.a4 + e.py * (e.a3 * e.sa - e.a * e.rx2 * e.sa + e.a2 * e.ca * e.rx2 - 2
  * e.rxryrz + 2 * e.ca * e.rxryrz + e.a * e.rxryrz * e.sa) / e.a4 - e.pz * e.rx * (e.a3 * e.sa - 2 * e.ca * e.rz2 + 2 * e.rz2 -
  e.a * e.rz2 * e.sa) / e.a4)) / 2

/-- Entry (0, 5), covariance-inl.hpp:2334-2359. -/
noncomputable def e05 (e : Env) : ℝ :=
  e.nz * (2 * e.nx * (e.py * (e.a2 * e.ry - 2 * e.rx2ry + 2 * e.ca * e.rx2ry - e.a2 * e.ca * e.ry + e.a * e.rxrz * e.sa - e.a2 *
  e.ca * e.rxrz + e.a * e.rx2ry * e.sa) / e.a4 + e.pz * (e.a2 * e.rz - 2 * e.rx2rz + 2 * e.ca * e.rx2rz - e.a2 * e.ca * e.rz - e.a
  * e.rxry * e.sa + e.a2 * e.ca * e.rxry + e.a * e.rx2rz * e.sa) / e.a4 - e.px * e.rx * (e.a2 - e.rx2) * (2 * e.ca + e.a * e.sa -
  2) / e.a4) - 2 * e.ny * (e.pz * (e.a3 * e.sa - e.a * e.rx2 * e.sa + e.a2 * e.ca * e.rx2 + 2 * e.rxryrz - 2 * e.ca * e.rxryrz -
  e.a * e.rxryrz * e.sa) / e.a4 - e.px * (e.a2 * e.ry - 2 * e.rx2ry + 2 * e.ca * e.rx2ry - e.a2 * e.ca * e.ry - e.a * e.rxrz *
  e.sa + e.a2 * e.ca * e.rxrz + e.a * e.rx2ry * e.sa) / e.a4 + e.py * e.rx * (e.a3 * e.sa - 2 * e.ca * e.ry2 + 2 * e.ry2 - e.a *
  e.ry2 * e.sa) / e.a4) + 2 * e.nz * (e.px * (e.a2 * e.rz - 2 * e.rx2rz + 2 * e.ca * e.rx2rz - e.a2 * e.ca * e.rz + e.a * e.rxry *
  e.sa - e.a2 * e.ca * e.rxry + e.a * e.rx2rz * e.sa) / e.a4 + e.py * (e.a3 * e.sa - e.a * e.rx2 * e.sa + e.a2 * e.ca * e.rx2 - 2
  * e.rxryrz + 2 * e.ca * e.rxryrz + e.a * e.rxryrz * e.sa) / e.a4 - e.pz * e.rx * (e.a3 * e.sa - 2 * e.ca * e.rz2 + 2 * e.rz2 -
  e.a * e.rz2 * e.sa) / e.a4)) / 2

/-- Entry (1, 0), covariance-inl.hpp:2360-2460. -/
noncomputable def e10 (e : Env) : ℝ :=
  (2 * e.nx * (e.py * (8 * e.rx2ry2 - e.a4 * e.ca + e.a4 - 2 * e.a2 * e.rx2 - 2 * e.a2 * e.ry2 + 2 * e.a2 * e.ca * e.rx2 + 2 *
  e.a2 * e.ca * e.ry2 + e.a3 * e.rx2 * e.sa + e.a3 * e.ry2 * e.sa - 8 * e.ca * e.rx2ry2 + e.a2 * e.ca * e.rx2ry2 - 5 * e.a *
  e.rx2ry2 * e.sa - 3 * e.a * e.rxryrz * e.sa + 3 * e.a2 * e.ca * e.rxryrz + e.a3 * e.rxryrz * e.sa) / e.a6 - e.pz * (2 * e.a2 *
  e.ryrz + e.a3 * e.rx * e.sa - 8 * e.rx2ryrz - e.a4 * e.ca * e.rx - 2 * e.a2 * e.ca * e.ryrz - 3 * e.a * e.rxry2 * e.sa - e.a3 *
  e.ryrz * e.sa + 8 * e.ca * e.rx2ryrz + 3 * e.a2 * e.ca * e.rxry2 + e.a3 * e.rxry2 * e.sa - e.a2 * e.ca * e.rx2ryrz + 5 * e.a *
  e.rx2ryrz * e.sa) / e.a6 + e.px * e.rxry * (4 * e.a2 * e.ca - e.a4 * e.ca + 3 * e.a3 * e.sa - 8 * e.ca * e.rx2 - 4 * e.a2 + 8 *
  e.rx2 - 5 * e.a * e.rx2 * e.sa + e.a2 * e.ca * e.rx2) / e.a6) + 2 * e.ny * (e.px * (8 * e.rx2ry2 - e.a4 * e.ca + e.a4 - 2 * e.a2
  * e.rx2 - 2 * e.a2 * e.ry2 + 2 * e.a2 * e.ca * e.rx2 + 2 * e.a2 * e.ca * e.ry2 + e.a3 * e.rx2 * e.sa + e.a3 * e.ry2 * e.sa - 8 *
  e.ca * e.rx2ry2 + e.a2 * e.ca * e.rx2ry2 - 5 * e.a * e.rx2ry2 * e.sa + 3 * e.a * e.rxryrz * e.sa - 3 * e.a2 * e.ca * e.rxryrz -
  e.a3 * e.rxryrz * e.sa) / e.a6 + e.pz * (e.a3 * e.ry * e.sa - 2 * e.a2 * e.rxrz + 8 * e.rxry2rz - e.a4 * e.ca * e.ry + 2 * e.a2
  * e.ca * e.rxrz - 3 * e.a * e.rx2ry * e.sa + e.a3 * e.rxrz * e.sa - 8 * e.ca * e.rxry2rz + 3 * e.a2 * e.ca * e.rx2ry + e.a3 *
  e.rx2ry * e.sa + e.a2 * e.ca * e.rxry2rz - 5 * e.a * e.rxry2rz * e.sa) / e.a6 + e.py * e.rxry * (4 * e.a2 * e.ca - e.a4 * e.ca +
  3 * e.a3 * e.sa - 8 * e.ca * e.ry2 - 4 * e.a2 + 8 * e.ry2 - 5 * e.a * e.ry2 * e.sa + e.a2 * e.ca * e.ry2) / e.a6) + 2 * e.nz *
  (e.a4 * e.ca * e.py * e.ry - e.a4 * e.ca * e.px * e.rx + e.a3 * e.px * e.rx * e.sa - e.a3 * e.py * e.ry * e.sa + 8 * e.px *
  e.rx2ryrz + 8 * e.py * e.rxry2rz + 8 * e.pz * e.rxryrz2 - 2 * e.px * e.ryrz * (e.rx2 + e.ry2 + e.rz2) - 2 * e.py * e.rxrz *
  (e.rx2 + e.ry2 + e.rz2) + e.a3 * e.px * e.rxry2 * e.sa - e.a3 * e.py * e.rx2ry * e.sa + 3 * e.ca * e.px * e.rxry2 * (e.rx2 +
  e.ry2 + e.rz2) - 3 * e.ca * e.py * e.rx2ry * (e.rx2 + e.ry2 + e.rz2) - e.a4 * e.ca * e.pz * e.rxry - 3 * e.a * e.px * e.rxry2 *
  e.sa + 3 * e.a * e.py * e.rx2ry * e.sa + e.a3 * e.px * e.ryrz * e.sa + e.a3 * e.py * e.rxrz * e.sa + e.a3 * e.pz * e.rxry * e.sa
  - 8 * e.ca * e.px * e.rx2ryrz - 8 * e.ca * e.py * e.rxry2rz - 8 * e.ca * e.pz * e.rxryrz2 + 2 * e.ca * e.px * e.ryrz * (e.rx2 +
  e.ry2 + e.rz2) + 2 * e.ca * e.py * e.rxrz * (e.rx2 + e.ry2 + e.rz2) - 5 * e.a * e.px * e.rx2ryrz * e.sa - 5 * e.a * e.py *
  e.rxry2rz * e.sa - 5 * e.a * e.pz * e.rxryrz2 * e.sa + e.ca * e.px * e.rx2ryrz * (e.rx2 + e.ry2 + e.rz2) + e.ca * e.py *
  e.rxry2rz * (e.rx2 + e.ry2 + e.rz2) + e.ca * e.pz * e.rxryrz2 * (e.rx2 + e.ry2 + e.rz2)) / e.a6) * (e.nx * (e.a2 * e.tx - e.a2 *
  e.qx + e.px * e.rx2 - e.ca * e.px * e.rx2 + e.py * e.rxry + e.pz * e.rxrz + e.a2 * e.ca * e.px - e.a * e.py * e.rz * e.sa + e.a
  * e.pz * e.ry * e.sa - e.ca * e.py * e.rxry - e.ca * e.pz * e.rxrz) / e.a2 + e.ny * (e.a2 * e.ty - e.a2 * e.qy + e.py * e.ry2 -
  e.ca * e.py * e.ry2 + e.px * e.rxry + e.pz * e.ryrz + e.a2 * e.ca * e.py + e.a * e.px * e.rz * e.sa - e.a * e.pz * e.rx * e.sa -
  e.ca * e.px * e.rxry - e.ca * e.pz * e.ryrz) / e.a2 + e.nz * (e.a2 * e.tz - e.a2 * e.qz + e.pz * e.rz2 - e.ca * e.pz * e.rz2 +
  e.px * e.rxrz + e.py * e.ryrz + e.a2 * e.ca * e.pz - e.a * e.px * e.ry * e.sa + e.a * e.py * e.rx * e.sa - e.ca * e.px * e.rxrz
  - e.ca * e.py * e.ryrz) / e.a2) / 2 + (2 * e.ny * (e.px * (e.a2 * e.rx - 2 * e.rxry2 + 2 * e.ca * e.rxry2 - e.a2 * e.ca * e.rx -
  e.a * e.ryrz * e.sa + e.a2 * e.ca * e.ryrz + e.a * e.rxry2 * e.sa) / e.a4 + e.pz * (e.a2 * e.rz - 2 * e.ry2rz + 2 * e.ca *
  e.ry2rz - e.a2 * e.ca * e.rz + e.a * e.rxry * e.sa - e.a2 * e.ca * e.rxry + e.a * e.ry2rz * e.sa) / e.a4 - e.py * e.ry * (e.a2 -
  e.ry2) * (2 * e.ca + e.a * e.sa - 2) / e.a4) + 2 * e.nx * (e.a3 * e.pz * e.sa - 2 * e.px * e.rx2ry - 2 * e.py * e.rxry2 + e.py *
  e.rx * (e.rx2 + e.ry2 + e.rz2) - 2 * e.pz * e.rxryrz - e.a3 * e.px * e.ry * e.sa - e.a * e.pz * e.ry2 * e.sa + 2 * e.ca * e.px *
  e.rx2ry + 2 * e.ca * e.py * e.rxry2 - e.ca * e.py * e.rx * (e.rx2 + e.ry2 + e.rz2) + e.ca * e.pz * e.ry2 * (e.rx2 + e.ry2 +
  e.rz2) + e.a * e.py * e.ryrz * e.sa + 2 * e.ca * e.pz * e.rxryrz + e.a * e.px * e.rx2ry * e.sa + e.a * e.py * e.rxry2 * e.sa -
  e.ca * e.py * e.ryrz * (e.rx2 + e.ry2 + e.rz2) + e.a * e.pz * e.rxryrz * e.sa) / e.a4 + 2 * e.nz * (e.py * e.rz * (e.rx2 + e.ry2
  + e.rz2) - 2 * e.py * e.ry2rz - 2 * e.pz * e.ryrz2 - e.a3 * e.px * e.sa - 2 * e.px * e.rxryrz + e.a * e.px * e.ry2 * e.sa - e.a3
  * e.pz * e.ry * e.sa + 2 * e.ca * e.py * e.ry2rz + 2 * e.ca * e.pz * e.ryrz2 - e.ca * e.py * e.rz * (e.rx2 + e.ry2 + e.rz2) -
  e.ca * e.px * e.ry2 * (e.rx2 + e.ry2 + e.rz2) - e.a * e.py * e.rxry * e.sa + 2 * e.ca * e.px * e.rxryrz + e.a * e.py * e.ry2rz *
  e.sa + e.a * e.pz * e.ryrz2 * e.sa + e.ca * e.py * e.rxry * (e.rx2 + e.ry2 + e.rz2) + e.a * e.px * e.rxryrz * e.sa) / e.a4) *
  (e.a3 * e.nz * e.py * e.sa - e.a3 * e.ny * e.pz * e.sa - 2 * e.nx * e.px * e.rx3 + 2 * e.ca * e.nx * e.px * e.rx3 - 2 * e.nx *
  e.py * e.rx2ry - 2 * e.ny * e.px * e.rx2ry - 2 * e.ny * e.py * e.rxry2 - 2 * e.nx * e.pz * e.rx2rz - 2 * e.nz * e.px * e.rx2rz -
  2 * e.nz * e.pz * e.rxrz2 + 2 * e.nx * e.px * e.rx * (e.rx2 + e.ry2 + e.rz2) + e.nx * e.py * e.ry * (e.rx2 + e.ry2 + e.rz2) +
  e.ny * e.px * e.ry * (e.rx2 + e.ry2 + e.rz2) + e.nx * e.pz * e.rz * (e.rx2 + e.ry2 + e.rz2) + e.nz * e.px * e.rz * (e.rx2 +
  e.ry2 + e.rz2) - e.ca * e.ny * e.pz * e.rx2 * (e.rx2 + e.ry2 + e.rz2) + e.ca * e.nz * e.py * e.rx2 * (e.rx2 + e.ry2 + e.rz2) - 2
  * e.ny * e.pz * e.rxryrz - 2 * e.nz * e.py * e.rxryrz + e.a * e.nx * e.px * e.rx3 * e.sa - e.a3 * e.nx * e.px * e.rx * e.sa -
  e.a3 * e.ny * e.py * e.rx * e.sa + e.a * e.ny * e.pz * e.rx2 * e.sa - e.a * e.nz * e.py * e.rx2 * e.sa - e.a3 * e.nz * e.pz *
  e.rx * e.sa + 2 * e.ca * e.nx * e.py * e.rx2ry + 2 * e.ca * e.ny * e.px * e.rx2ry + 2 * e.ca * e.ny * e.py * e.rxry2 + 2 * e.ca
  * e.nx * e.pz * e.rx2rz + 2 * e.ca * e.nz * e.px * e.rx2rz + 2 * e.ca * e.nz * e.pz * e.rxrz2 - 2 * e.ca * e.nx * e.px * e.rx *
  (e.rx2 + e.ry2 + e.rz2) - e.ca * e.nx * e.py * e.ry * (e.rx2 + e.ry2 + e.rz2) - e.ca * e.ny * e.px * e.ry * (e.rx2 + e.ry2 +
  e.rz2) - e.ca * e.nx * e.pz * e.rz * (e.rx2 + e.ry2 + e.rz2) - e.ca * e.nz * e.px * e.rz * (e.rx2 + e.ry2 + e.rz2) + e.a * e.nx
  * e.py * e.rx2ry * e.sa + e.a * e.ny * e.px * e.rx2ry * e.sa + e.a * e.ny * e.py * e.rxry2 * e.sa + e.a * e.nx * e.pz * e.rx2rz
  * e.sa + e.a * e.nz * e.px * e.rx2rz * e.sa + e.a * e.nz * e.pz * e.rxrz2 * e.sa - e.ca * e.nx * e.py * e.rxrz * (e.rx2 + e.ry2
  + e.rz2) + e.ca * e.nx * e.pz * e.rxry * (e.rx2 + e.ry2 + e.rz2) + e.ca * e.ny * e.px * e.rxrz * (e.rx2 + e.ry2 + e.rz2) - e.ca
  * e.nz * e.px * e.rxry * (e.rx2 + e.ry2 + e.rz2) + e.a * e.nx * e.py * e.rxrz * e.sa - e.a * e.nx * e.pz * e.rxry * e.sa - e.a *
  e.ny * e.px * e.rxrz * e.sa + e.a * e.nz * e.px * e.rxry * e.sa + 2 * e.ca * e.ny * e.pz * e.rxryrz + 2 * e.ca * e.nz * e.py *
  e.rxryrz + e.a * e.ny * e.pz * e.rxryrz * e.sa + e.a * e.nz * e.py * e.rxryrz * e.sa) / (2 * e.a4)

/-- Entry (1, 1), covariance-inl.hpp:2461-2562. -/
noncomputable def e11 (e : Env) : ℝ :=
  (e.nx * (e.a2 * e.tx - e.a2 * e.qx + e.px * e.rx2 - e.ca * e.px * e.rx2 + e.py * e.rxry + e.pz * e.rxrz + e.a2 * e.ca * e.px -
  e.a * e.py * e.rz * e.sa + e.a * e.pz * e.ry * e.sa - e.ca * e.py * e.rxry - e.ca * e.pz * e.rxrz) / e.a2 + e.ny * (e.a2 * e.ty
  - e.a2 * e.qy + e.py * e.ry2 - e.ca * e.py * e.ry2 + e.px * e.rxry + e.pz * e.ryrz + e.a2 * e.ca * e.py + e.a * e.px * e.rz *
  e.sa - e.a * e.pz * e.rx * e.sa - e.ca * e.px * e.rxry - e.ca * e.pz * e.ryrz) / e.a2 + e.nz * (e.a2 * e.tz - e.a2 * e.qz + e.pz
  * e.rz2 - e.ca * e.pz * e.rz2 + e.px * e.rxrz + e.py * e.ryrz + e.a2 * e.ca * e.pz - e.a * e.px * e.ry * e.sa + e.a * e.py *
  e.rx * e.sa - e.ca * e.px * e.rxrz - e.ca * e.py * e.ryrz) / e.a2) * (2 * e.ny * (e.px * (8 * e.rxry3 - 6 * e.a2 * e.rxry - e.a3
  * e.rz * e.sa - 8 * e.ca * e.rxry3 + e.a4 * e.ca * e.rz + 6 * e.a2 * e.ca * e.rxry - 5 * e.a * e.rxry3 * e.sa + 3 * e.a3 *
  e.rxry * e.sa + 3 * e.a * e.ry2rz * e.sa + e.a2 * e.ca * e.rxry3 - 3 * e.a2 * e.ca * e.ry2rz - e.a3 * e.ry2rz * e.sa) / e.a6 +
  e.pz * (8 * e.ry3rz - 6 * e.a2 * e.ryrz + e.a3 * e.rx * e.sa - 8 * e.ca * e.ry3rz - e.a4 * e.ca * e.rx + 6 * e.a2 * e.ca *
  e.ryrz - 3 * e.a * e.rxry2 * e.sa - 5 * e.a * e.ry3rz * e.sa + 3 * e.a3 * e.ryrz * e.sa + 3 * e.a2 * e.ca * e.rxry2 + e.a2 *
  e.ca * e.ry3rz + e.a3 * e.rxry2 * e.sa) / e.a6 - e.py * (e.a2 - e.ry2) * (2 * e.a2 * e.ca + e.a3 * e.sa - 8 * e.ca * e.ry2 - 2 *
  e.a2 + 8 * e.ry2 - 5 * e.a * e.ry2 * e.sa + e.a2 * e.ca * e.ry2) / e.a6) + 2 * e.nx * (e.px * (8 * e.rx2ry2 - e.a5 * e.sa - 2 *
  e.a2 * e.rx2 + 2 * e.a2 * e.ca * e.rx2 - e.a4 * e.ca * e.ry2 + e.a3 * e.rx2 * e.sa + e.a3 * e.ry2 * e.sa - 8 * e.ca * e.rx2ry2 +
  e.a2 * e.ca * e.rx2ry2 - 5 * e.a * e.rx2ry2 * e.sa) / e.a6 - e.pz * (2 * e.a2 * e.rxrz - 3 * e.a * e.ry3 * e.sa + 3 * e.a3 *
  e.ry * e.sa - 8 * e.rxry2rz + 3 * e.a2 * e.ca * e.ry3 + e.a3 * e.ry3 * e.sa - 3 * e.a4 * e.ca * e.ry - 2 * e.a2 * e.ca * e.rxrz
  - e.a3 * e.rxrz * e.sa + 8 * e.ca * e.rxry2rz - e.a2 * e.ca * e.rxry2rz + 5 * e.a * e.rxry2rz * e.sa) / e.a6 + e.py * (8 *
  e.rxry3 - 6 * e.a2 * e.rxry + e.a3 * e.rz * e.sa - 8 * e.ca * e.rxry3 - e.a4 * e.ca * e.rz + 6 * e.a2 * e.ca * e.rxry - 5 * e.a
  * e.rxry3 * e.sa + 3 * e.a3 * e.rxry * e.sa - 3 * e.a * e.ry2rz * e.sa + e.a2 * e.ca * e.rxry3 + 3 * e.a2 * e.ca * e.ry2rz +
  e.a3 * e.ry2rz * e.sa) / e.a6) + 2 * e.nz * (e.px * (3 * e.a3 * e.ry * e.sa - 3 * e.a * e.ry3 * e.sa - 2 * e.a2 * e.rxrz + 8 *
  e.rxry2rz + 3 * e.a2 * e.ca * e.ry3 + e.a3 * e.ry3 * e.sa - 3 * e.a4 * e.ca * e.ry + 2 * e.a2 * e.ca * e.rxrz + e.a3 * e.rxrz *
  e.sa - 8 * e.ca * e.rxry2rz + e.a2 * e.ca * e.rxry2rz - 5 * e.a * e.rxry2rz * e.sa) / e.a6 + e.pz * (8 * e.ry2rz2 - e.a5 * e.sa
  - 2 * e.a2 * e.rz2 - e.a4 * e.ca * e.ry2 + 2 * e.a2 * e.ca * e.rz2 + e.a3 * e.ry2 * e.sa + e.a3 * e.rz2 * e.sa - 8 * e.ca *
  e.ry2rz2 + e.a2 * e.ca * e.ry2rz2 - 5 * e.a * e.ry2rz2 * e.sa) / e.a6 + e.py * (8 * e.ry3rz - 6 * e.a2 * e.ryrz - e.a3 * e.rx *
  e.sa - 8 * e.ca * e.ry3rz + e.a4 * e.ca * e.rx + 6 * e.a2 * e.ca * e.ryrz + 3 * e.a * e.rxry2 * e.sa - 5 * e.a * e.ry3rz * e.sa
  + 3 * e.a3 * e.ryrz * e.sa - 3 * e.a2 * e.ca * e.rxry2 + e.a2 * e.ca * e.ry3rz - e.a3 * e.rxry2 * e.sa) / e.a6)) / 2 + (2 * e.ny
  * (e.px * (e.a2 * e.rx - 2 * e.rxry2 + 2 * e.ca * e.rxry2 - e.a2 * e.ca * e.rx - e.a * e.ryrz * e.sa + e.a2 * e.ca * e.ryrz +
  e.a * e.rxry2 * e.sa) / e.a4 + e.pz * (e.a2 * e.rz - 2 * e.ry2rz + 2 * e.ca * e.ry2rz - e.a2 * e.ca * e.rz + e.a * e.rxry * e.sa
  - e.a2 * e.ca * e.rxry + e.a * e.ry2rz * e.sa) / e.a4 - e.py * e.ry * (e.a2 - e.ry2) * (2 * e.ca + e.a * e.sa - 2) / e.a4) + 2 *
  e.nx * (e.a3 * e.pz * e.sa - 2 * e.px * e.rx2ry - 2 * e.py * e.rxry2 + e.py * e.rx * (e.rx2 + e.ry2 + e.rz2) - 2 * e.pz *
  e.rxryrz - e.a3 * e.px * e.ry * e.sa - e.a * e.pz * e.ry2 * e.sa + 2 * e.ca * e.px * e.rx2ry + 2 * e.ca * e.py * e.rxry2 - e.ca
  * e.py * e.rx * (e.rx2 + e.ry2 + e.rz2) + e.ca * e.pz * e.ry2 * (e.rx2 + e.ry2 + e.rz2) + e.a * e.py * e.ryrz * e.sa + 2 * e.ca
  * e.pz * e.rxryrz + e.a * e.px * e.rx2ry * e.sa + e.a * e.py * e.rxry2 * e.sa - e.ca * e.py * e.ryrz * (e.rx2 + e.ry2 + e.rz2) +
  e.a * e.pz * e.rxryrz * e.sa) / e.a4 + 2 * e.nz * (e.py * e.rz * (e.rx2 + e.ry2 + e.rz2) - 2 * e.py * e.ry2rz - 2 * e.pz *
  e.ryrz2 - e.a3 * e.px * e.sa - 2 * e.px * e.rxryrz + e.a * e.px * e.ry2 * e.sa - e.a3 * e.pz * e.ry * e.sa + 2 * e.ca * e.py *
  e.ry2rz + 2 * e.ca * e.pz * e.ryrz2 - e.ca * e.py * e.rz * (e.rx2 + e.ry2 + e.rz2) - e.ca * e.px * e.ry2 * (e.rx2 + e.ry2 +
  e.rz2) - e.a * e.py * e.rxry * e.sa + 2 * e.ca * e.px * e.rxryrz + e.a * e.py * e.ry2rz * e.sa + e.a * e.pz * e.ryrz2 * e.sa +
  e.ca * e.py * e.rxry * (e.rx2 + e.ry2 + e.rz2) + e.a * e.px * e.rxryrz * e.sa) / e.a4) * (e.a3 * e.nx * e.pz * e.sa - 2 * e.ny *
  e.py * e.ry3 - e.a3 * e.nz * e.px * e.sa + 2 * e.ca * e.ny * e.py * e.ry3 - 2 * e.nx * e.px * e.rx2ry - 2 * e.nx * e.py *
  e.rxry2 - 2 * e.ny * e.px * e.rxry2 - 2 * e.ny * e.pz * e.ry2rz - 2 * e.nz * e.py * e.ry2rz - 2 * e.nz * e.pz * e.ryrz2 + e.nx *
  e.py * e.rx * (e.rx2 + e.ry2 + e.rz2) + e.ny * e.px * e.rx * (e.rx2 + e.ry2 + e.rz2) + 2 * e.ny * e.py * e.ry * (e.rx2 + e.ry2 +
  e.rz2) + e.ny * e.pz * e.rz * (e.rx2 + e.ry2 + e.rz2) + e.nz * e.py * e.rz * (e.rx2 + e.ry2 + e.rz2) + e.ca * e.nx * e.pz *
  e.ry2 * (e.rx2 + e.ry2 + e.rz2) - e.ca * e.nz * e.px * e.ry2 * (e.rx2 + e.ry2 + e.rz2) - 2 * e.nx * e.pz * e.rxryrz - 2 * e.nz *
  e.px * e.rxryrz - e.a3 * e.nx * e.px * e.ry * e.sa - e.a * e.nx * e.pz * e.ry2 * e.sa + e.a * e.nz * e.px * e.ry2 * e.sa + e.a *
  e.ny * e.py * e.ry3 * e.sa - e.a3 * e.ny * e.py * e.ry * e.sa - e.a3 * e.nz * e.pz * e.ry * e.sa + 2 * e.ca * e.nx * e.px *
  e.rx2ry + 2 * e.ca * e.nx * e.py * e.rxry2 + 2 * e.ca * e.ny * e.px * e.rxry2 + 2 * e.ca * e.ny * e.pz * e.ry2rz + 2 * e.ca *
  e.nz * e.py * e.ry2rz + 2 * e.ca * e.nz * e.pz * e.ryrz2 - e.ca * e.nx * e.py * e.rx * (e.rx2 + e.ry2 + e.rz2) - e.ca * e.ny *
  e.px * e.rx * (e.rx2 + e.ry2 + e.rz2) - 2 * e.ca * e.ny * e.py * e.ry * (e.rx2 + e.ry2 + e.rz2) - e.ca * e.ny * e.pz * e.rz *
  (e.rx2 + e.ry2 + e.rz2) - e.ca * e.nz * e.py * e.rz * (e.rx2 + e.ry2 + e.rz2) + e.a * e.nx * e.px * e.rx2ry * e.sa + e.a * e.nx
  * e.py * e.rxry2 * e.sa + e.a * e.ny * e.px * e.rxry2 * e.sa + e.a * e.ny * e.pz * e.ry2rz * e.sa + e.a * e.nz * e.py * e.ry2rz
  * e.sa + e.a * e.nz * e.pz * e.ryrz2 * e.sa - e.ca * e.nx * e.py * e.ryrz * (e.rx2 + e.ry2 + e.rz2) + e.ca * e.ny * e.px *
  e.ryrz * (e.rx2 + e.ry2 + e.rz2) - e.ca * e.ny * e.pz * e.rxry * (e.rx2 + e.ry2 + e.rz2) + e.ca * e.nz * e.py * e.rxry * (e.rx2
  + e.ry2 + e.rz2) + e.a * e.nx * e.py * e.ryrz * e.sa - e.a * e.ny * e.px * e.ryrz * e.sa + e.a * e.ny * e.pz * e.rxry * e.sa -
  e.a * e.nz * e.py * e.rxry * e.sa + 2 * e.ca * e.nx * e.pz * e.rxryrz + 2 * e.ca * e.nz * e.px * e.rxryrz + e.a * e.nx * e.pz *
  e.rxryrz * e.sa + e.a * e.nz * e.px * e.rxryrz * e.sa) / (2 * e.a4)

/-- Entry (1, 2), covariance-inl.hpp:2563-2663. -/
noncomputable def e12 (e : Env) : ℝ :=
  (2 * e.ny * (e.pz * (8 * e.ry2rz2 - e.a4 * e.ca + e.a4 - 2 * e.a2 * e.ry2 - 2 * e.a2 * e.rz2 + 2 * e.a2 * e.ca * e.ry2 + 2 *
  e.a2 * e.ca * e.rz2 + e.a3 * e.ry2 * e.sa + e.a3 * e.rz2 * e.sa - 8 * e.ca * e.ry2rz2 + e.a2 * e.ca * e.ry2rz2 - 5 * e.a *
  e.ry2rz2 * e.sa - 3 * e.a * e.rxryrz * e.sa + 3 * e.a2 * e.ca * e.rxryrz + e.a3 * e.rxryrz * e.sa) / e.a6 - e.px * (2 * e.a2 *
  e.rxrz + e.a3 * e.ry * e.sa - 8 * e.rxry2rz - e.a4 * e.ca * e.ry - 2 * e.a2 * e.ca * e.rxrz - e.a3 * e.rxrz * e.sa - 3 * e.a *
  e.ryrz2 * e.sa + 8 * e.ca * e.rxry2rz + 3 * e.a2 * e.ca * e.ryrz2 + e.a3 * e.ryrz2 * e.sa - e.a2 * e.ca * e.rxry2rz + 5 * e.a *
  e.rxry2rz * e.sa) / e.a6 + e.py * e.ryrz * (4 * e.a2 * e.ca - e.a4 * e.ca + 3 * e.a3 * e.sa - 8 * e.ca * e.ry2 - 4 * e.a2 + 8 *
  e.ry2 - 5 * e.a * e.ry2 * e.sa + e.a2 * e.ca * e.ry2) / e.a6) + 2 * e.nz * (e.py * (8 * e.ry2rz2 - e.a4 * e.ca + e.a4 - 2 * e.a2
  * e.ry2 - 2 * e.a2 * e.rz2 + 2 * e.a2 * e.ca * e.ry2 + 2 * e.a2 * e.ca * e.rz2 + e.a3 * e.ry2 * e.sa + e.a3 * e.rz2 * e.sa - 8 *
  e.ca * e.ry2rz2 + e.a2 * e.ca * e.ry2rz2 - 5 * e.a * e.ry2rz2 * e.sa + 3 * e.a * e.rxryrz * e.sa - 3 * e.a2 * e.ca * e.rxryrz -
  e.a3 * e.rxryrz * e.sa) / e.a6 + e.px * (e.a3 * e.rz * e.sa - 2 * e.a2 * e.rxry + 8 * e.rxryrz2 - e.a4 * e.ca * e.rz + 2 * e.a2
  * e.ca * e.rxry + e.a3 * e.rxry * e.sa - 3 * e.a * e.ry2rz * e.sa - 8 * e.ca * e.rxryrz2 + 3 * e.a2 * e.ca * e.ry2rz + e.a3 *
  e.ry2rz * e.sa + e.a2 * e.ca * e.rxryrz2 - 5 * e.a * e.rxryrz2 * e.sa) / e.a6 + e.pz * e.ryrz * (4 * e.a2 * e.ca - e.a4 * e.ca +
  3 * e.a3 * e.sa - 8 * e.ca * e.rz2 - 4 * e.a2 + 8 * e.rz2 - 5 * e.a * e.rz2 * e.sa + e.a2 * e.ca * e.rz2) / e.a6) + 2 * e.nx *
  (e.a4 * e.ca * e.pz * e.rz - e.a4 * e.ca * e.py * e.ry + e.a3 * e.py * e.ry * e.sa - e.a3 * e.pz * e.rz * e.sa + 8 * e.px *
  e.rx2ryrz + 8 * e.py * e.rxry2rz + 8 * e.pz * e.rxryrz2 - 2 * e.py * e.rxrz * (e.rx2 + e.ry2 + e.rz2) - 2 * e.pz * e.rxry *
  (e.rx2 + e.ry2 + e.rz2) + e.a3 * e.py * e.ryrz2 * e.sa - e.a3 * e.pz * e.ry2rz * e.sa + 3 * e.ca * e.py * e.ryrz2 * (e.rx2 +
  e.ry2 + e.rz2) - 3 * e.ca * e.pz * e.ry2rz * (e.rx2 + e.ry2 + e.rz2) - e.a4 * e.ca * e.px * e.ryrz + e.a3 * e.px * e.ryrz * e.sa
  + e.a3 * e.py * e.rxrz * e.sa + e.a3 * e.pz * e.rxry * e.sa - 3 * e.a * e.py * e.ryrz2 * e.sa + 3 * e.a * e.pz * e.ry2rz * e.sa
  - 8 * e.ca * e.px * e.rx2ryrz - 8 * e.ca * e.py * e.rxry2rz - 8 * e.ca * e.pz * e.rxryrz2 + 2 * e.ca * e.py * e.rxrz * (e.rx2 +
  e.ry2 + e.rz2) + 2 * e.ca * e.pz * e.rxry * (e.rx2 + e.ry2 + e.rz2) - 5 * e.a * e.px * e.rx2ryrz * e.sa - 5 * e.a * e.py *
  e.rxry2rz * e.sa - 5 * e.a * e.pz * e.rxryrz2 * e.sa + e.ca * e.px * e.rx2ryrz * (e.rx2 + e.ry2 + e.rz2) + e.ca * e.py *
  e.rxry2rz * (e.rx2 + e.ry2 + e.rz2) + e.ca * e.pz * e.rxryrz2 * (e.rx2 + e.ry2 + e.rz2)) / e.a6) * (e.nx * (e.a2 * e.tx - e.a2 *
  e.qx + e.px * e.rx2 - e.ca * e.px * e.rx2 + e.py * e.rxry + e.pz * e.rxrz + e.a2 * e.ca * e.px - e.a * e.py * e.rz * e.sa + e.a
  * e.pz * e.ry * e.sa - e.ca * e.py * e.rxry - e.ca * e.pz * e.rxrz) / e.a2 + e.ny * (e.a2 * e.ty - e.a2 * e.qy + e.py * e.ry2 -
  e.ca * e.py * e.ry2 + e.px * e.rxry + e.pz * e.ryrz + e.a2 * e.ca * e.py + e.a * e.px * e.rz * e.sa - e.a * e.pz * e.rx * e.sa -
  e.ca * e.px * e.rxry - e.ca * e.pz * e.ryrz) / e.a2 + e.nz * (e.a2 * e.tz - e.a2 * e.qz + e.pz * e.rz2 - e.ca * e.pz * e.rz2 +
  e.px * e.rxrz + e.py * e.ryrz + e.a2 * e.ca * e.pz - e.a * e.px * e.ry * e.sa + e.a * e.py * e.rx * e.sa - e.ca * e.px * e.rxrz
  - e.ca * e.py * e.ryrz) / e.a2) / 2 + (2 * e.ny * (e.px * (e.a2 * e.rx - 2 * e.rxry2 + 2 * e.ca * e.rxry2 - e.a2 * e.ca * e.rx -
  e.a * e.ryrz * e.sa + e.a2 * e.ca * e.ryrz + e.a * e.rxry2 * e.sa) / e.a4 + e.pz * (e.a2 * e.rz - 2 * e.ry2rz + 2 * e.ca *
  e.ry2rz - e.a2 * e.ca * e.rz + e.a * e.rxry * e.sa - e.a2 * e.ca * e.rxry + e.a * e.ry2rz * e.sa) / e.a4 - e.py * e.ry * (e.a2 -
  e.ry2) * (2 * e.ca + e.a * e.sa - 2) / e.a4) + 2 * e.nx * (e.a3 * e.pz * e.sa - 2 * e.px * e.rx2ry - 2 * e.py * e.rxry2 + e.py *
  e.rx * (e.rx2 + e.ry2 + e.rz2) - 2 * e.pz * e.rxryrz - e.a3 * e.px * e.ry * e.sa - e.a * e.pz * e.ry2 * e.sa + 2 * e.ca * e.px *
  e.rx2ry + 2 * e.ca * e.py * e.rxry2 - e.ca * e.py * e.rx * (e.rx2 + e.ry2 + e.rz2) + e.ca * e.pz * e.ry2 * (e.rx2 + e.ry2 +
  e.rz2) + e.a * e.py * e.ryrz * e.sa + 2 * e.ca * e.pz * e.rxryrz + e.a * e.px * e.rx2ry * e.sa + e.a * e.py * e.rxry2 * e.sa -
  e.ca * e.py * e.ryrz * (e.rx2 + e.ry2 + e.rz2) + e.a * e.pz * e.rxryrz * e.sa) / e.a4 + 2 * e.nz * (e.py * e.rz * (e.rx2 + e.ry2
  + e.rz2) - 2 * e.py * e.ry2rz - 2 * e.pz * e.ryrz2 - e.a3 * e.px * e.sa - 2 * e.px * e.rxryrz + e.a * e.px * e.ry2 * e.sa - e.a3
  * e.pz * e.ry * e.sa + 2 * e.ca * e.py * e.ry2rz + 2 * e.ca * e.pz * e.ryrz2 - e.ca * e.py * e.rz * (e.rx2 + e.ry2 + e.rz2) -
  e.ca * e.px * e.ry2 * (e.rx2 + e.ry2 + e.rz2) - e.a * e.py * e.rxry * e.sa + 2 * e.ca * e.px * e.rxryrz + e.a * e.py * e.ry2rz *
  e.sa + e.a * e.pz * e.ryrz2 * e.sa + e.ca * e.py * e.rxry * (e.rx2 + e.ry2 + e.rz2) + e.a * e.px * e.rxryrz * e.sa) / e.a4) *
  (e.a3 * e.ny * e.px * e.sa - e.a3 * e.nx * e.py * e.sa - 2 * e.nz * e.pz * e.rz3 + 2 * e.ca * e.nz * e.pz * e.rz3 - 2 * e.nx *
  e.px * e.rx2rz - 2 * e.nx * e.pz * e.rxrz2 - 2 * e.nz * e.px * e.rxrz2 - 2 * e.ny * e.py * e.ry2rz - 2 * e.ny * e.pz * e.ryrz2 -
  2 * e.nz * e.py * e.ryrz2 + e.nx * e.pz * e.rx * (e.rx2 + e.ry2 + e.rz2) + e.nz * e.px * e.rx * (e.rx2 + e.ry2 + e.rz2) + e.ny *
  e.pz * e.ry * (e.rx2 + e.ry2 + e.rz2) + e.nz * e.py * e.ry * (e.rx2 + e.ry2 + e.rz2) + 2 * e.nz * e.pz * e.rz * (e.rx2 + e.ry2 +
  e.rz2) - e.ca * e.nx * e.py * e.rz2 * (e.rx2 + e.ry2 + e.rz2) + e.ca * e.ny * e.px * e.rz2 * (e.rx2 + e.ry2 + e.rz2) - 2 * e.nx
  * e.py * e.rxryrz - 2 * e.ny * e.px * e.rxryrz - e.a3 * e.nx * e.px * e.rz * e.sa + e.a * e.nx * e.py * e.rz2 * e.sa - e.a *
  e.ny * e.px * e.rz2 * e.sa - e.a3 * e.ny * e.py * e.rz * e.sa + e.a * e.nz * e.pz * e.rz3 * e.sa - e.a3 * e.nz * e.pz * e.rz *
  e.sa + 2 * e.ca * e.nx * e.px * e.rx2rz + 2 * e.ca * e.nx * e.pz * e.rxrz2 + 2 * e.ca * e.nz * e.px * e.rxrz2 + 2 * e.ca * e.ny
  * e.py * e.ry2rz + 2 * e.ca * e.ny * e.pz * e.ryrz2 + 2 * e.ca * e.nz * e.py * e.ryrz2 - e.ca * e.nx * e.pz * e.rx * (e.rx2 +
  e.ry2 + e.rz2) - e.ca * e.nz * e.px * e.rx * (e.rx2 + e.ry2 + e.rz2) - e.ca * e.ny * e.pz * e.ry * (e.rx2 + e.ry2 + e.rz2) -
  e.ca * e.nz * e.py * e.ry * (e.rx2 + e.ry2 + e.rz2) - 2 * e.ca * e.nz * e.pz * e.rz * (e.rx2 + e.ry2 + e.rz2) + e.a * e.nx *
  e.px * e.rx2rz * e.sa + e.a * e.nx * e.pz * e.rxrz2 * e.sa + e.a * e.nz * e.px * e.rxrz2 * e.sa + e.a * e.ny * e.py * e.ry2rz *
  e.sa + e.a * e.ny * e.pz * e.ryrz2 * e.sa + e.a * e.nz * e.py * e.ryrz2 * e.sa + e.ca * e.nx * e.pz * e.ryrz * (e.rx2 + e.ry2 +
  e.rz2) - e.ca * e.ny * e.pz * e.rxrz * (e.rx2 + e.ry2 + e.rz2) - e.ca * e.nz * e.px * e.ryrz * (e.rx2 + e.ry2 + e.rz2) + e.ca *
  e.nz * e.py * e.rxrz * (e.rx2 + e.ry2 + e.rz2) - e.a * e.nx * e.pz * e.ryrz * e.sa + e.a * e.ny * e.pz * e.rxrz * e.sa + e.a *
  e.nz * e.px * e.ryrz * e.sa - e.a * e.nz * e.py * e.rxrz * e.sa + 2 * e.ca * e.nx * e.py * e.rxryrz + 2 * e.ca * e.ny * e.px *
  e.rxryrz + e.a * e.nx * e.py * e.rxryrz * e.sa + e.a * e.ny * e.px * e.rxryrz * e.sa) / (2 * e.a4)

/-- Entry (1, 3), covariance-inl.hpp:2664-2689. -/
noncomputable def e13 (e : Env) : ℝ :=
  e.nx * (2 * e.ny * (e.px * (e.a2 * e.rx - 2 * e.rxry2 + 2 * e.ca * e.rxry2 - e.a2 * e.ca * e.rx - e.a * e.ryrz * e.sa + e.a2 *
  e.ca * e.ryrz + e.a * e.rxry2 * e.sa) / e.a4 + e.pz * (e.a2 * e.rz - 2 * e.ry2rz + 2 * e.ca * e.ry2rz - e.a2 * e.ca * e.rz + e.a
  * e.rxry * e.sa - e.a2 * e.ca * e.rxry + e.a * e.ry2rz * e.sa) / e.a4 - e.py * e.ry * (e.a2 - e.ry2) * (2 * e.ca + e.a * e.sa -
  2) / e.a4) + 2 * e.nx * (e.py * (e.a2 * e.rx - 2 * e.rxry2 + 2 * e.ca * e.rxry2 - e.a2 * e.ca * e.rx + e.a * e.ryrz * e.sa -
  e.a2 * e.ca * e.ryrz + e.a * e.rxry2 * e.sa) / e.a4 + e.pz * (e.a3 * e.sa - e.a * e.ry2 * e.sa + e.a2 * e.ca * e.ry2 - 2 *
  e.rxryrz + 2 * e.ca * e.rxryrz + e.a * e.rxryrz * e.sa) / e.a4 - e.px * e.ry * (e.a3 * e.sa - 2 * e.ca * e.rx2 + 2 * e.rx2 - e.a
  * e.rx2 * e.sa) / e.a4) - 2 * e.nz * (e.px * (e.a3 * e.sa - e.a * e.ry2 * e.sa + e.a2 * e.ca * e.ry2 + 2 * e.rxryrz - 2 * e.ca *
  e.rxryrz - e.a * e.rxryrz * e.sa) / e.a4 - e.py * (e.a2 * e.rz - 2 * e.ry2rz + 2 * e.ca * e.ry2rz - e.a2 * e.ca * e.rz - e.a *
  e.rxry * e.sa + e.a2 * e.ca * e.rxry + e.a * e.ry2rz * e.sa) / e.a4 + e.pz * e.ry * (e.a3 * e.sa - 2 * e.ca * e.rz2 + 2 * e.rz2
  - e.a * e.rz2 * e.sa) / e.a4)) / 2

/-- Entry (1, 4), covariance-inl.hpp:2690-2715. -/
noncomputable def e14 (e : Env) : ℝ :=
  e.ny * (2 * e.ny * (e.px * (e.a2 * e.rx - 2 * e.rxry2 + 2 * e.ca * e.rxry2 - e.a2 * e.ca * e.rx - e.a * e.ryrz * e.sa + e.a2 *
  e.ca * e.ryrz + e.a * e.rxry2 * e.sa) / e.a4 + e.pz * (e.a2 * e.rz - 2 * e.ry2rz + 2 * e.ca * e.ry2rz - e.a2 * e.ca * e.rz + e.a
  * e.rxry * e.sa - e.a2 * e.ca * e.rxry + e.a * e.ry2rz * e.sa) / e.a4 - e.py * e.ry * (e.a2 - e.ry2) * (2 * e.ca + e.a * e.sa -
  2) / e.a4) + 2 * e.nx * (e.py * (e.a2 * e.rx - 2 * e.rxry2 + 2 * e.ca * e.rxry2 - e.a2 * e.ca * e.rx + e.a * e.ryrz * e.sa -
  e.a2 * e.ca * e.ryrz + e.a * e.rxry2 * e.sa) / e.a4 + e.pz * (e.a3 * e.sa - e.a * e.ry2 * e.sa + e.a2 * e.ca * e.ry2 - 2 *
  e.rxryrz + 2 * e.ca * e.rxryrz + e.a * e.rxryrz * e.sa) / e.a4 - e.px * e.ry * (e.a3 * e.sa - 2 * e.ca * e.rx2 + 2 * e.rx2 - e.a
  * e.rx2 * e.sa) / e.a4) - 2 * e.nz * (e.px * (e.a3 * e.sa - e.a * e.ry2 * e.sa + e.a2 * e.ca * e.ry2 + 2 * e.rxryrz - 2 * e.ca *
  e.rxryrz - e.a * e.rxryrz * e.sa) / e.a4 - e.py * (e.a2 * e.rz - 2 * e.ry2rz + 2 * e.ca * e.ry2rz - e.a2 * e.ca * e.rz - e.a *
  e.rxry * e.sa + e.a2 * e.ca * e.rxry + e.a * e.ry2rz * e.sa) / e.a4 + e.pz * e.ry * (e.a3 * e.sa - 2 * e.ca * e.rz2 + 2 * e.rz2
  - e.a * e.rz2 * e.sa) / e.a4)) / 2

/-- Entry (1, 5), covariance-inl.hpp:2716-2741. -/
noncomputable def e15 (e : Env) : ℝ :=
  e.nz * (2 * e.ny * (e.px * (e.a2 * e.rx - 2 * e.rxry2 + 2 * e.ca * e.rxry2 - e.a2 * e.ca * e.rx - e.a * e.ryrz * e.sa + e.a2 *
  e.ca * e.ryrz + e.a * e.rxry2 * e.sa) / e.a4 + e.pz * (e.a2 * e.rz - 2 * e.ry2rz + 2 * e.ca * e.ry2rz - e.a2 * e.ca * e.rz + e.a
  * e.rxry * e.sa - e.a2 * e.ca * e.rxry + e.a * e.ry2rz * e.sa) / e.a4 - e.py * e.ry * (e.a2 - e.ry2) * (2 * e.ca + e.a * e.sa -
  2) / e.a4) + 2 * e.nx * (e.py * (e.a2 * e.rx - 2 * e.rxry2 + 2 * e.ca * e.rxry2 - e.a2 * e.ca * e.rx + e.a * e.ryrz * e.sa -
  e.a2 * e.ca * e.ryrz + e.a * e.rxry2 * e.sa) / e.a4 + e.pz * (e.a3 * e.sa - e.a * e.ry2 * e.sa + e.a2 * e.ca * e.ry2 - 2 *
  e.rxryrz + 2 * e.ca * e.rxryrz + e.a * e.rxryrz * e.sa) / e.a4 - e.px * e.ry * (e.a3 * e.sa - 2 * e.ca * e.rx2 + 2 * e.rx2 - e.a
  * e.rx2 * e.sa) / e.a4) - 2 * e.nz * (e.px * (e.a3 * e.sa - e.a * e.ry2 * e.sa + e.a2 * e.ca * e.ry2 + 2 * e.rxryrz - 2 * e.ca *
  e.rxryrz - e.a * e.rxryrz * e.sa) / e.a4 - e.py * (e.a2 * e.rz - 2 * e.ry2rz + 2 * e.ca * e.ry2rz - e.a2 * e.ca * e.rz - e.a *
  e.rxry * e.sa + e.a2 * e.ca * e.rxry + e.a * e.ry2rz * e.sa) / e.a4 + e.pz * e.ry * (e.a3 * e.sa - 2 * e.ca * e.rz2 + 2 * e.rz2
  - e.a * e.rz2 * e.sa) / e.a4)) / 2

/-- Entry (2, 0), covariance-inl.hpp:2742-2842. -/
noncomputable def e20 (e : Env) : ℝ :=
  (2 * e.nx * (e.pz * (8 * e.rx2rz2 - e.a4 * e.ca + e.a4 - 2 * e.a2 * e.rx2 - 2 * e.a2 * e.rz2 + 2 * e.a2 * e.ca * e.rx2 + 2 *
  e.a2 * e.ca * e.rz2 + e.a3 * e.rx2 * e.sa + e.a3 * e.rz2 * e.sa - 8 * e.ca * e.rx2rz2 + e.a2 * e.ca * e.rx2rz2 - 5 * e.a *
  e.rx2rz2 * e.sa + 3 * e.a * e.rxryrz * e.sa - 3 * e.a2 * e.ca * e.rxryrz - e.a3 * e.rxryrz * e.sa) / e.a6 + e.py * (e.a3 * e.rx
  * e.sa - 2 * e.a2 * e.ryrz + 8 * e.rx2ryrz - e.a4 * e.ca * e.rx + 2 * e.a2 * e.ca * e.ryrz - 3 * e.a * e.rxrz2 * e.sa + e.a3 *
  e.ryrz * e.sa - 8 * e.ca * e.rx2ryrz + 3 * e.a2 * e.ca * e.rxrz2 + e.a3 * e.rxrz2 * e.sa + e.a2 * e.ca * e.rx2ryrz - 5 * e.a *
  e.rx2ryrz * e.sa) / e.a6 + e.px * e.rxrz * (4 * e.a2 * e.ca - e.a4 * e.ca + 3 * e.a3 * e.sa - 8 * e.ca * e.rx2 - 4 * e.a2 + 8 *
  e.rx2 - 5 * e.a * e.rx2 * e.sa + e.a2 * e.ca * e.rx2) / e.a6) + 2 * e.nz * (e.px * (8 * e.rx2rz2 - e.a4 * e.ca + e.a4 - 2 * e.a2
  * e.rx2 - 2 * e.a2 * e.rz2 + 2 * e.a2 * e.ca * e.rx2 + 2 * e.a2 * e.ca * e.rz2 + e.a3 * e.rx2 * e.sa + e.a3 * e.rz2 * e.sa - 8 *
  e.ca * e.rx2rz2 + e.a2 * e.ca * e.rx2rz2 - 5 * e.a * e.rx2rz2 * e.sa - 3 * e.a * e.rxryrz * e.sa + 3 * e.a2 * e.ca * e.rxryrz +
  e.a3 * e.rxryrz * e.sa) / e.a6 - e.py * (2 * e.a2 * e.rxry + e.a3 * e.rz * e.sa - 8 * e.rxryrz2 - e.a4 * e.ca * e.rz - 2 * e.a2
  * e.ca * e.rxry - e.a3 * e.rxry * e.sa - 3 * e.a * e.rx2rz * e.sa + 8 * e.ca * e.rxryrz2 + 3 * e.a2 * e.ca * e.rx2rz + e.a3 *
  e.rx2rz * e.sa - e.a2 * e.ca * e.rxryrz2 + 5 * e.a * e.rxryrz2 * e.sa) / e.a6 + e.pz * e.rxrz * (4 * e.a2 * e.ca - e.a4 * e.ca +
  3 * e.a3 * e.sa - 8 * e.ca * e.rz2 - 4 * e.a2 + 8 * e.rz2 - 5 * e.a * e.rz2 * e.sa + e.a2 * e.ca * e.rz2) / e.a6) + 2 * e.ny *
  (e.a4 * e.ca * e.px * e.rx - e.a4 * e.ca * e.pz * e.rz - e.a3 * e.px * e.rx * e.sa + e.a3 * e.pz * e.rz * e.sa + 8 * e.px *
  e.rx2ryrz + 8 * e.py * e.rxry2rz + 8 * e.pz * e.rxryrz2 - 2 * e.px * e.ryrz * (e.rx2 + e.ry2 + e.rz2) - 2 * e.pz * e.rxry *
  (e.rx2 + e.ry2 + e.rz2) - e.a3 * e.px * e.rxrz2 * e.sa + e.a3 * e.pz * e.rx2rz * e.sa - 3 * e.ca * e.px * e.rxrz2 * (e.rx2 +
  e.ry2 + e.rz2) + 3 * e.ca * e.pz * e.rx2rz * (e.rx2 + e.ry2 + e.rz2) - e.a4 * e.ca * e.py * e.rxrz + 3 * e.a * e.px * e.rxrz2 *
  e.sa + e.a3 * e.px * e.ryrz * e.sa + e.a3 * e.py * e.rxrz * e.sa + e.a3 * e.pz * e.rxry * e.sa - 3 * e.a * e.pz * e.rx2rz * e.sa
  - 8 * e.ca * e.px * e.rx2ryrz - 8 * e.ca * e.py * e.rxry2rz - 8 * e.ca * e.pz * e.rxryrz2 + 2 * e.ca * e.px * e.ryrz * (e.rx2 +
  e.ry2 + e.rz2) + 2 * e.ca * e.pz * e.rxry * (e.rx2 + e.ry2 + e.rz2) - 5 * e.a * e.px * e.rx2ryrz * e.sa - 5 * e.a * e.py *
  e.rxry2rz * e.sa - 5 * e.a * e.pz * e.rxryrz2 * e.sa + e.ca * e.px * e.rx2ryrz * (e.rx2 + e.ry2 + e.rz2) + e.ca * e.py *
  e.rxry2rz * (e.rx2 + e.ry2 + e.rz2) + e.ca * e.pz * e.rxryrz2 * (e.rx2 + e.ry2 + e.rz2)) / e.a6) * (e.nx * (e.a2 * e.tx - e.a2 *
  e.qx + e.px * e.rx2 - e.ca * e.px * e.rx2 + e.py * e.rxry + e.pz * e.rxrz + e.a2 * e.ca * e.px - e.a * e.py * e.rz * e.sa + e.a
  * e.pz * e.ry * e.sa - e.ca * e.py * e.rxry - e.ca * e.pz * e.rxrz) / e.a2 + e.ny * (e.a2 * e.ty - e.a2 * e.qy + e.py * e.ry2 -
  e.ca * e.py * e.ry2 + e.px * e.rxry + e.pz * e.ryrz + e.a2 * e.ca * e.py + e.a * e.px * e.rz * e.sa - e.a * e.pz * e.rx * e.sa -
  e.ca * e.px * e.rxry - e.ca * e.pz * e.ryrz) / e.a2 + e.nz * (e.a2 * e.tz - e.a2 * e.qz + e.pz * e.rz2 - e.ca * e.pz * e.rz2 +
  e.px * e.rxrz + e.py * e.ryrz + e.a2 * e.ca * e.pz - e.a * e.px * e.ry * e.sa + e.a * e.py * e.rx * e.sa - e.ca * e.px * e.rxrz
  - e.ca * e.py * e.ryrz) / e.a2) / 2 + (2 * e.nz * (e.px * (e.a2 * e.rx - 2 * e.rxrz2 + 2 * e.ca * e.rxrz2 - e.a2 * e.ca * e.rx +
  e.a * e.ryrz * e.sa - e.a2 * e.ca * e.ryrz + e.a * e.rxrz2 * e.sa) / e.a4 + e.py * (e.a2 * e.ry - 2 * e.ryrz2 + 2 * e.ca *
  e.ryrz2 - e.a2 * e.ca * e.ry - e.a * e.rxrz * e.sa + e.a2 * e.ca * e.rxrz + e.a * e.ryrz2 * e.sa) / e.a4 - e.pz * e.rz * (e.a2 -
  e.rz2) * (2 * e.ca + e.a * e.sa - 2) / e.a4) + 2 * e.nx * (e.pz * e.rx * (e.rx2 + e.ry2 + e.rz2) - 2 * e.px * e.rx2rz - 2 * e.pz
  * e.rxrz2 - e.a3 * e.py * e.sa - 2 * e.py * e.rxryrz - e.a3 * e.px * e.rz * e.sa + e.a * e.py * e.rz2 * e.sa + 2 * e.ca * e.px *
  e.rx2rz + 2 * e.ca * e.pz * e.rxrz2 - e.ca * e.pz * e.rx * (e.rx2 + e.ry2 + e.rz2) - e.ca * e.py * e.rz2 * (e.rx2 + e.ry2 +
  e.rz2) - e.a * e.pz * e.ryrz * e.sa + 2 * e.ca * e.py * e.rxryrz + e.a * e.px * e.rx2rz * e.sa + e.a * e.pz * e.rxrz2 * e.sa +
  e.ca * e.pz * e.ryrz * (e.rx2 + e.ry2 + e.rz2) + e.a * e.py * e.rxryrz * e.sa) / e.a4 + 2 * e.ny * (e.a3 * e.px * e.sa - 2 *
  e.py * e.ry2rz - 2 * e.pz * e.ryrz2 + e.pz * e.ry * (e.rx2 + e.ry2 + e.rz2) - 2 * e.px * e.rxryrz - e.a * e.px * e.rz2 * e.sa -
  e.a3 * e.py * e.rz * e.sa + 2 * e.ca * e.py * e.ry2rz + 2 * e.ca * e.pz * e.ryrz2 - e.ca * e.pz * e.ry * (e.rx2 + e.ry2 + e.rz2)
  + e.ca * e.px * e.rz2 * (e.rx2 + e.ry2 + e.rz2) + e.a * e.pz * e.rxrz * e.sa + 2 * e.ca * e.px * e.rxryrz + e.a * e.py * e.ry2rz
  * e.sa + e.a * e.pz * e.ryrz2 * e.sa - e.ca * e.pz * e.rxrz * (e.rx2 + e.ry2 + e.rz2) + e.a * e.px * e.rxryrz * e.sa) / e.a4) *
  (e.a3 * e.nz * e.py * e.sa - e.a3 * e.ny * e.pz * e.sa - 2 * e.nx * e.px * e.rx3 + 2 * e.ca * e.nx * e.px * e.rx3 - 2 * e.nx *
  e.py * e.rx2ry - 2 * e.ny * e.px * e.rx2ry - 2 * e.ny * e.py * e.rxry2 - 2 * e.nx * e.pz * e.rx2rz - 2 * e.nz * e.px * e.rx2rz -
  2 * e.nz * e.pz * e.rxrz2 + 2 * e.nx * e.px * e.rx * (e.rx2 + e.ry2 + e.rz2) + e.nx * e.py * e.ry * (e.rx2 + e.ry2 + e.rz2) +
  e.ny * e.px * e.ry * (e.rx2 + e.ry2 + e.rz2) + e.nx * e.pz * e.rz * (e.rx2 + e.ry2 + e.rz2) + e.nz * e.px * e.rz * (e.rx2 +
  e.ry2 + e.rz2) - e.ca * e.ny * e.pz * e.rx2 * (e.rx2 + e.ry2 + e.rz2) + e.ca * e.nz * e.py * e.rx2 * (e.rx2 + e.ry2 + e.rz2) - 2
  * e.ny * e.pz * e.rxryrz - 2 * e.nz * e.py * e.rxryrz + e.a * e.nx * e.px * e.rx3 * e.sa - e.a3 * e.nx * e.px * e.rx * e.sa -
  e.a3 * e.ny * e.py * e.rx * e.sa + e.a * e.ny * e.pz * e.rx2 * e.sa - e.a * e.nz * e.py * e.rx2 * e.sa - e.a3 * e.nz * e.pz *
  e.rx * e.sa + 2 * e.ca * e.nx * e.py * e.rx2ry + 2 * e.ca * e.ny * e.px * e.rx2ry + 2 * e.ca * e.ny * e.py * e.rxry2 + 2 * e.ca
  * e.nx * e.pz * e.rx2rz + 2 * e.ca * e.nz * e.px * e.rx2rz + 2 * e.ca * e.nz * e.pz * e.rxrz2 - 2 * e.ca * e.nx * e.px * e.rx *
  (e.rx2 + e.ry2 + e.rz2) - e.ca * e.nx * e.py * e.ry * (e.rx2 + e.ry2 + e.rz2) - e.ca * e.ny * e.px * e.ry * (e.rx2 + e.ry2 +
  e.rz2) - e.ca * e.nx * e.pz * e.rz * (e.rx2 + e.ry2 + e.rz2) - e.ca * e.nz * e.px * e.rz * (e.rx2 + e.ry2 + e.rz2) + e.a * e.nx
  * e.py * e.rx2ry * e.sa + e.a * e.ny * e.px * e.rx2ry * e.sa + e.a * e.ny * e.py * e.rxry2 * e.sa + e.a * e.nx * e.pz * e.rx2rz
  * e.sa + e.a * e.nz * e.px * e.rx2rz * e.sa + e.a * e.nz * e.pz * e.rxrz2 * e.sa - e.ca * e.nx * e.py * e.rxrz * (e.rx2 + e.ry2
  + e.rz2) + e.ca * e.nx * e.pz * e.rxry * (e.rx2 + e.ry2 + e.rz2) + e.ca * e.ny * e.px * e.rxrz * (e.rx2 + e.ry2 + e.rz2) - e.ca
  * e.nz * e.px * e.rxry * (e.rx2 + e.ry2 + e.rz2) + e.a * e.nx * e.py * e.rxrz * e.sa - e.a * e.nx * e.pz * e.rxry * e.sa - e.a *
  e.ny * e.px * e.rxrz * e.sa + e.a * e.nz * e.px * e.rxry * e.sa + 2 * e.ca * e.ny * e.pz * e.rxryrz + 2 * e.ca * e.nz * e.py *
  e.rxryrz + e.a * e.ny * e.pz * e.rxryrz * e.sa + e.a * e.nz * e.py * e.rxryrz * e.sa) / (2 * e.a4)

/-- Entry (2, 1), covariance-inl.hpp:2843-2943. -/
noncomputable def e21 (e : Env) : ℝ :=
  (2 * e.ny * (e.pz * (8 * e.ry2rz2 - e.a4 * e.ca + e.a4 - 2 * e.a2 * e.ry2 - 2 * e.a2 * e.rz2 + 2 * e.a2 * e.ca * e.ry2 + 2 *
  e.a2 * e.ca * e.rz2 + e.a3 * e.ry2 * e.sa + e.a3 * e.rz2 * e.sa - 8 * e.ca * e.ry2rz2 + e.a2 * e.ca * e.ry2rz2 - 5 * e.a *
  e.ry2rz2 * e.sa - 3 * e.a * e.rxryrz * e.sa + 3 * e.a2 * e.ca * e.rxryrz + e.a3 * e.rxryrz * e.sa) / e.a6 - e.px * (2 * e.a2 *
  e.rxrz + e.a3 * e.ry * e.sa - 8 * e.rxry2rz - e.a4 * e.ca * e.ry - 2 * e.a2 * e.ca * e.rxrz - e.a3 * e.rxrz * e.sa - 3 * e.a *
  e.ryrz2 * e.sa + 8 * e.ca * e.rxry2rz + 3 * e.a2 * e.ca * e.ryrz2 + e.a3 * e.ryrz2 * e.sa - e.a2 * e.ca * e.rxry2rz + 5 * e.a *
  e.rxry2rz * e.sa) / e.a6 + e.py * e.ryrz * (4 * e.a2 * e.ca - e.a4 * e.ca + 3 * e.a3 * e.sa - 8 * e.ca * e.ry2 - 4 * e.a2 + 8 *
  e.ry2 - 5 * e.a * e.ry2 * e.sa + e.a2 * e.ca * e.ry2) / e.a6) + 2 * e.nz * (e.py * (8 * e.ry2rz2 - e.a4 * e.ca + e.a4 - 2 * e.a2
  * e.ry2 - 2 * e.a2 * e.rz2 + 2 * e.a2 * e.ca * e.ry2 + 2 * e.a2 * e.ca * e.rz2 + e.a3 * e.ry2 * e.sa + e.a3 * e.rz2 * e.sa - 8 *
  e.ca * e.ry2rz2 + e.a2 * e.ca * e.ry2rz2 - 5 * e.a * e.ry2rz2 * e.sa + 3 * e.a * e.rxryrz * e.sa - 3 * e.a2 * e.ca * e.rxryrz -
  e.a3 * e.rxryrz * e.sa) / e.a6 + e.px * (e.a3 * e.rz * e.sa - 2 * e.a2 * e.rxry + 8 * e.rxryrz2 - e.a4 * e.ca * e.rz + 2 * e.a2
  * e.ca * e.rxry + e.a3 * e.rxry * e.sa - 3 * e.a * e.ry2rz * e.sa - 8 * e.ca * e.rxryrz2 + 3 * e.a2 * e.ca * e.ry2rz + e.a3 *
  e.ry2rz * e.sa + e.a2 * e.ca * e.rxryrz2 - 5 * e.a * e.rxryrz2 * e.sa) / e.a6 + e.pz * e.ryrz * (4 * e.a2 * e.ca - e.a4 * e.ca +
  3 * e.a3 * e.sa - 8 * e.ca * e.rz2 - 4 * e.a2 + 8 * e.rz2 - 5 * e.a * e.rz2 * e.sa + e.a2 * e.ca * e.rz2) / e.a6) + 2 * e.nx *
  (e.a4 * e.ca * e.pz * e.rz - e.a4 * e.ca * e.py * e.ry + e.a3 * e.py * e.ry * e.sa - e.a3 * e.pz * e.rz * e.sa + 8 * e.px *
  e.rx2ryrz + 8 * e.py * e.rxry2rz + 8 * e.pz * e.rxryrz2 - 2 * e.py * e.rxrz * (e.rx2 + e.ry2 + e.rz2) - 2 * e.pz * e.rxry *
  (e.rx2 + e.ry2 + e.rz2) + e.a3 * e.py * e.ryrz2 * e.sa - e.a3 * e.pz * e.ry2rz * e.sa + 3 * e.ca * e.py * e.ryrz2 * (e.rx2 +
  e.ry2 + e.rz2) - 3 * e.ca * e.pz * e.ry2rz * (e.rx2 + e.ry2 + e.rz2) - e.a4 * e.ca * e.px * e.ryrz + e.a3 * e.px * e.ryrz * e.sa
  + e.a3 * e.py * e.rxrz * e.sa + e.a3 * e.pz * e.rxry * e.sa - 3 * e.a * e.py * e.ryrz2 * e.sa + 3 * e.a * e.pz * e.ry2rz * e.sa
  - 8 * e.ca * e.px * e.rx2ryrz - 8 * e.ca * e.py * e.rxry2rz - 8 * e.ca * e.pz * e.rxryrz2 + 2 * e.ca * e.py * e.rxrz * (e.rx2 +
  e.ry2 + e.rz2) + 2 * e.ca * e.pz * e.rxry * (e.rx2 + e.ry2 + e.rz2) - 5 * e.a * e.px * e.rx2ryrz * e.sa - 5 * e.a * e.py *
  e.rxry2rz * e.sa - 5 * e.a * e.pz * e.rxryrz2 * e.sa + e.ca * e.px * e.rx2ryrz * (e.rx2 + e.ry2 + e.rz2) + e.ca * e.py *
  e.rxry2rz * (e.rx2 + e.ry2 + e.rz2) + e.ca * e.pz * e.rxryrz2 * (e.rx2 + e.ry2 + e.rz2)) / e.a6) * (e.nx * (e.a2 * e.tx - e.a2 *
  e.qx + e.px * e.rx2 - e.ca * e.px * e.rx2 + e.py * e.rxry + e.pz * e.rxrz + e.a2 * e.ca * e.px - e.a * e.py * e.rz * e.sa + e.a
  * e.pz * e.ry * e.sa - e.ca * e.py * e.rxry - e.ca * e.pz * e.rxrz) / e.a2 + e.ny * (e.a2 * e.ty - e.a2 * e.qy + e.py * e.ry2 -
  e.ca * e.py * e.ry2 + e.px * e.rxry + e.pz * e.ryrz + e.a2 * e.ca * e.py + e.a * e.px * e.rz * e.sa - e.a * e.pz * e.rx * e.sa -
  e.ca * e.px * e.rxry - e.ca * e.pz * e.ryrz) / e.a2 + e.nz * (e.a2 * e.tz - e.a2 * e.qz + e.pz * e.rz2 - e.ca * e.pz * e.rz2 +
  e.px * e.rxrz + e.py * e.ryrz + e.a2 * e.ca * e.pz - e.a * e.px * e.ry * e.sa + e.a * e.py * e.rx * e.sa - e.ca * e.px * e.rxrz
  - e.ca * e.py * e.ryrz) / e.a2) / 2 + (2 * e.nz * (e.px * (e.a2 * e.rx - 2 * e.rxrz2 + 2 * e.ca * e.rxrz2 - e.a2 * e.ca * e.rx +
  e.a * e.ryrz * e.sa - e.a2 * e.ca * e.ryrz + e.a * e.rxrz2 * e.sa) / e.a4 + e.py * (e.a2 * e.ry - 2 * e.ryrz2 + 2 * e.ca *
  e.ryrz2 - e.a2 * e.ca * e.ry - e.a * e.rxrz * e.sa + e.a2 * e.ca * e.rxrz + e.a * e.ryrz2 * e.sa) / e.a4 - e.pz * e.rz * (e.a2 -
  e.rz2) * (2 * e.ca + e.a * e.sa - 2) / e.a4) + 2 * e.nx * (e.pz * e.rx * (e.rx2 + e.ry2 + e.rz2) - 2 * e.px * e.rx2rz - 2 * e.pz
  * e.rxrz2 - e.a3 * e.py * e.sa - 2 * e.py * e.rxryrz - e.a3 * e.px * e.rz * e.sa + e.a * e.py * e.rz2 * e.sa + 2 * e.ca * e.px *
  e.rx2rz + 2 * e.ca * e.pz * e.rxrz2 - e.ca * e.pz * e.rx * (e.rx2 + e.ry2 + e.rz2) - e.ca * e.py * e.rz2 * (e.rx2 + e.ry2 +
  e.rz2) - e.a * e.pz * e.ryrz * e.sa + 2 * e.ca * e.py * e.rxryrz + e.a * e.px * e.rx2rz * e.sa + e.a * e.pz * e.rxrz2 * e.sa +
  e.ca * e.pz * e.ryrz * (e.rx2 + e.ry2 + e.rz2) + e.a * e.py * e.rxryrz * e.sa) / e.a4 + 2 * e.ny * (e.a3 * e.px * e.sa - 2 *
  e.py * e.ry2rz - 2 * e.pz * e.ryrz2 + e.pz * e.ry * (e.rx2 + e.ry2 + e.rz2) - 2 * e.px * e.rxryrz - e.a * e.px * e.rz2 * e.sa -
  e.a3 * e.py * e.rz * e.sa + 2 * e.ca * e.py * e.ry2rz + 2 * e.ca * e.pz * e.ryrz2 - e.ca * e.pz * e.ry * (e.rx2 + e.ry2 + e.rz2)
  + e.ca * e.px * e.rz2 * (e.rx2 + e.ry2 + e.rz2) + e.a * e.pz * e.rxrz * e.sa + 2 * e.ca * e.px * e.rxryrz + e.a * e.py * e.ry2rz
  * e.sa + e.a * e.pz * e.ryrz2 * e.sa - e.ca * e.pz * e.rxrz * (e.rx2 + e.ry2 + e.rz2) + e.a * e.px * e.rxryrz * e.sa) / e.a4) *
  (e.a3 * e.nx * e.pz * e.sa - 2 * e.ny * e.py * e.ry3 - e.a3 * e.nz * e.px * e.sa + 2 * e.ca * e.ny * e.py * e.ry3 - 2 * e.nx *
  e.px * e.rx2ry - 2 * e.nx * e.py * e.rxry2 - 2 * e.ny * e.px * e.rxry2 - 2 * e.ny * e.pz * e.ry2rz - 2 * e.nz * e.py * e.ry2rz -
  2 * e.nz * e.pz * e.ryrz2 + e.nx * e.py * e.rx * (e.rx2 + e.ry2 + e.rz2) + e.ny * e.px * e.rx * (e.rx2 + e.ry2 + e.rz2) + 2 *
  e.ny * e.py * e.ry * (e.rx2 + e.ry2 + e.rz2) + e.ny * e.pz * e.rz * (e.rx2 + e.ry2 + e.rz2) + e.nz * e.py * e.rz * (e.rx2 +
  e.ry2 + e.rz2) + e.ca * e.nx * e.pz * e.ry2 * (e.rx2 + e.ry2 + e.rz2) - e.ca * e.nz * e.px * e.ry2 * (e.rx2 + e.ry2 + e.rz2) - 2
  * e.nx * e.pz * e.rxryrz - 2 * e.nz * e.px * e.rxryrz - e.a3 * e.nx * e.px * e.ry * e.sa - e.a * e.nx * e.pz * e.ry2 * e.sa +
  e.a * e.nz * e.px * e.ry2 * e.sa + e.a * e.ny * e.py * e.ry3 * e.sa - e.a3 * e.ny * e.py * e.ry * e.sa - e.a3 * e.nz * e.pz *
  e.ry * e.sa + 2 * e.ca * e.nx * e.px * e.rx2ry + 2 * e.ca * e.nx * e.py * e.rxry2 + 2 * e.ca * e.ny * e.px * e.rxry2 + 2 * e.ca
  * e.ny * e.pz * e.ry2rz + 2 * e.ca * e.nz * e.py * e.ry2rz + 2 * e.ca * e.nz * e.pz * e.ryrz2 - e.ca * e.nx * e.py * e.rx *
  (e.rx2 + e.ry2 + e.rz2) - e.ca * e.ny * e.px * e.rx * (e.rx2 + e.ry2 + e.rz2) - 2 * e.ca * e.ny * e.py * e.ry * (e.rx2 + e.ry2 +
  e.rz2) - e.ca * e.ny * e.pz * e.rz * (e.rx2 + e.ry2 + e.rz2) - e.ca * e.nz * e.py * e.rz * (e.rx2 + e.ry2 + e.rz2) + e.a * e.nx
  * e.px * e.rx2ry * e.sa + e.a * e.nx * e.py * e.rxry2 * e.sa + e.a * e.ny * e.px * e.rxry2 * e.sa + e.a * e.ny * e.pz * e.ry2rz
  * e.sa + e.a * e.nz * e.py * e.ry2rz * e.sa + e.a * e.nz * e.pz * e.ryrz2 * e.sa - e.ca * e.nx * e.py * e.ryrz * (e.rx2 + e.ry2
  + e.rz2) + e.ca * e.ny * e.px * e.ryrz * (e.rx2 + e.ry2 + e.rz2) - e.ca * e.ny * e.pz * e.rxry * (e.rx2 + e.ry2 + e.rz2) + e.ca
  * e.nz * e.py * e.rxry * (e.rx2 + e.ry2 + e.rz2) + e.a * e.nx * e.py * e.ryrz * e.sa - e.a * e.ny * e.px * e.ryrz * e.sa + e.a *
  e.ny * e.pz * e.rxry * e.sa - e.a * e.nz * e.py * e.rxry * e.sa + 2 * e.ca * e.nx * e.pz * e.rxryrz + 2 * e.ca * e.nz * e.px *
  e.rxryrz + e.a * e.nx * e.pz * e.rxryrz * e.sa + e.a * e.nz * e.px * e.rxryrz * e.sa) / (2 * e.a4)

/-- Entry (2, 2), covariance-inl.hpp:2944-3045. -/
noncomputable def e22 (e : Env) : ℝ :=
  (e.nx * (e.a2 * e.tx - e.a2 * e.qx + e.px * e.rx2 - e.ca * e.px * e.rx2 + e.py * e.rxry + e.pz * e.rxrz + e.a2 * e.ca * e.px -
  e.a * e.py * e.rz * e.sa + e.a * e.pz * e.ry * e.sa - e.ca * e.py * e.rxry - e.ca * e.pz * e.rxrz) / e.a2 + e.ny * (e.a2 * e.ty
  - e.a2 * e.qy + e.py * e.ry2 - e.ca * e.py * e.ry2 + e.px * e.rxry + e.pz * e.ryrz + e.a2 * e.ca * e.py + e.a * e.px * e.rz *
  e.sa - e.a * e.pz * e.rx * e.sa - e.ca * e.px * e.rxry - e.ca * e.pz * e.ryrz) / e.a2 + e.nz * (e.a2 * e.tz - e.a2 * e.qz + e.pz
  * e.rz2 - e.ca * e.pz * e.rz2 + e.px * e.rxrz + e.py * e.ryrz + e.a2 * e.ca * e.pz - e.a * e.px * e.ry * e.sa + e.a * e.py *
  e.rx * e.sa - e.ca * e.px * e.rxrz - e.ca * e.py * e.ryrz) / e.a2) * (2 * e.nz * (e.px * (8 * e.rxrz3 - 6 * e.a2 * e.rxrz + e.a3
  * e.ry * e.sa - 8 * e.ca * e.rxrz3 - e.a4 * e.ca * e.ry + 6 * e.a2 * e.ca * e.rxrz - 5 * e.a * e.rxrz3 * e.sa + 3 * e.a3 *
  e.rxrz * e.sa - 3 * e.a * e.ryrz2 * e.sa + e.a2 * e.ca * e.rxrz3 + 3 * e.a2 * e.ca * e.ryrz2 + e.a3 * e.ryrz2 * e.sa) / e.a6 +
  e.py * (8 * e.ryrz3 - 6 * e.a2 * e.ryrz - e.a3 * e.rx * e.sa - 8 * e.ca * e.ryrz3 + e.a4 * e.ca * e.rx + 6 * e.a2 * e.ca *
  e.ryrz + 3 * e.a * e.rxrz2 * e.sa - 5 * e.a * e.ryrz3 * e.sa + 3 * e.a3 * e.ryrz * e.sa - 3 * e.a2 * e.ca * e.rxrz2 + e.a2 *
  e.ca * e.ryrz3 - e.a3 * e.rxrz2 * e.sa) / e.a6 - e.pz * (e.a2 - e.rz2) * (2 * e.a2 * e.ca + e.a3 * e.sa - 8 * e.ca * e.rz2 - 2 *
  e.a2 + 8 * e.rz2 - 5 * e.a * e.rz2 * e.sa + e.a2 * e.ca * e.rz2) / e.a6) + 2 * e.nx * (e.py * (3 * e.a3 * e.rz * e.sa - 3 * e.a
  * e.rz3 * e.sa - 2 * e.a2 * e.rxry + 8 * e.rxryrz2 + 3 * e.a2 * e.ca * e.rz3 + e.a3 * e.rz3 * e.sa - 3 * e.a4 * e.ca * e.rz + 2
  * e.a2 * e.ca * e.rxry + e.a3 * e.rxry * e.sa - 8 * e.ca * e.rxryrz2 + e.a2 * e.ca * e.rxryrz2 - 5 * e.a * e.rxryrz2 * e.sa) /
  e.a6 + e.px * (8 * e.rx2rz2 - e.a5 * e.sa - 2 * e.a2 * e.rx2 + 2 * e.a2 * e.ca * e.rx2 - e.a4 * e.ca * e.rz2 + e.a3 * e.rx2 *
  e.sa + e.a3 * e.rz2 * e.sa - 8 * e.ca * e.rx2rz2 + e.a2 * e.ca * e.rx2rz2 - 5 * e.a * e.rx2rz2 * e.sa) / e.a6 + e.pz * (8 *
  e.rxrz3 - 6 * e.a2 * e.rxrz - e.a3 * e.ry * e.sa - 8 * e.ca * e.rxrz3 + e.a4 * e.ca * e.ry + 6 * e.a2 * e.ca * e.rxrz - 5 * e.a
  * e.rxrz3 * e.sa + 3 * e.a3 * e.rxrz * e.sa + 3 * e.a * e.ryrz2 * e.sa + e.a2 * e.ca * e.rxrz3 - 3 * e.a2 * e.ca * e.ryrz2 -
  e.a3 * e.ryrz2 * e.sa) / e.a6) + 2 * e.ny * (e.py * (8 * e.ry2rz2 - e.a5 * e.sa - 2 * e.a2 * e.ry2 + 2 * e.a2 * e.ca * e.ry2 -
  e.a4 * e.ca * e.rz2 + e.a3 * e.ry2 * e.sa + e.a3 * e.rz2 * e.sa - 8 * e.ca * e.ry2rz2 + e.a2 * e.ca * e.ry2rz2 - 5 * e.a *
  e.ry2rz2 * e.sa) / e.a6 - e.px * (2 * e.a2 * e.rxry - 3 * e.a * e.rz3 * e.sa + 3 * e.a3 * e.rz * e.sa - 8 * e.rxryrz2 + 3 * e.a2
  * e.ca * e.rz3 + e.a3 * e.rz3 * e.sa - 3 * e.a4 * e.ca * e.rz - 2 * e.a2 * e.ca * e.rxry - e.a3 * e.rxry * e.sa + 8 * e.ca *
  e.rxryrz2 - e.a2 * e.ca * e.rxryrz2 + 5 * e.a * e.rxryrz2 * e.sa) / e.a6 + e.pz * (8 * e.ryrz3 - 6 * e.a2 * e.ryrz + e.a3 * e.rx
  * e.sa - 8 * e.ca * e.ryrz3 - e.a4 * e.ca * e.rx + 6 * e.a2 * e.ca * e.ryrz - 3 * e.a * e.rxrz2 * e.sa - 5 * e.a * e.ryrz3 *
  e.sa + 3 * e.a3 * e.ryrz * e.sa + 3 * e.a2 * e.ca * e.rxrz2 + e.a2 * e.ca * e.ryrz3 + e.a3 * e.rxrz2 * e.sa) / e.a6)) / 2 + (2 *
  e.nz * (e.px * (e.a2 * e.rx - 2 * e.rxrz2 + 2 * e.ca * e.rxrz2 - e.a2 * e.ca * e.rx + e.a * e.ryrz * e.sa - e.a2 * e.ca * e.ryrz
  + e.a * e.rxrz2 * e.sa) / e.a4 + e.py * (e.a2 * e.ry - 2 * e.ryrz2 + 2 * e.ca * e.ryrz2 - e.a2 * e.ca * e.ry - e.a * e.rxrz *
  e.sa + e.a2 * e.ca * e.rxrz + e.a * e.ryrz2 * e.sa) / e.a4 - e.pz * e.rz * (e.a2 - e.rz2) * (2 * e.ca + e.a * e.sa - 2) / e.a4)
  + 2 * e.nx * (e.pz * e.rx * (e.rx2 + e.ry2 + e.rz2) - 2 * e.px * e.rx2rz - 2 * e.pz * e.rxrz2 - e.a3 * e.py * e.sa - 2 * e.py *
  e.rxryrz - e.a3 * e.px * e.rz * e.sa + e.a * e.py * e.rz2 * e.sa + 2 * e.ca * e.px * e.rx2rz + 2 * e.ca * e.pz * e.rxrz2 - e.ca
  * e.pz * e.rx * (e.rx2 + e.ry2 + e.rz2) - e.ca * e.py * e.rz2 * (e.rx2 + e.ry2 + e.rz2) - e.a * e.pz * e.ryrz * e.sa + 2 * e.ca
  * e.py * e.rxryrz + e.a * e.px * e.rx2rz * e.sa + e.a * e.pz * e.rxrz2 * e.sa + e.ca * e.pz * e.ryrz * (e.rx2 + e.ry2 + e.rz2) +
  e.a * e.py * e.rxryrz * e.sa) / e.a4 + 2 * e.ny * (e.a3 * e.px * e.sa - 2 * e.py * e.ry2rz - 2 * e.pz * e.ryrz2 + e.pz * e.ry *
  (e.rx2 + e.ry2 + e.rz2) - 2 * e.px * e.rxryrz - e.a * e.px * e.rz2 * e.sa - e.a3 * e.py * e.rz * e.sa + 2 * e.ca * e.py *
  e.ry2rz + 2 * e.ca * e.pz * e.ryrz2 - e.ca * e.pz * e.ry * (e.rx2 + e.ry2 + e.rz2) + e.ca * e.px * e.rz2 * (e.rx2 + e.ry2 +
  e.rz2) + e.a * e.pz * e.rxrz * e.sa + 2 * e.ca * e.px * e.rxryrz + e.a * e.py * e.ry2rz * e.sa + e.a * e.pz * e.ryrz2 * e.sa -
  e.ca * e.pz * e.rxrz * (e.rx2 + e.ry2 + e.rz2) + e.a * e.px * e.rxryrz * e.sa) / e.a4) * (e.a3 * e.ny * e.px * e.sa - e.a3 *
  e.nx * e.py * e.sa - 2 * e.nz * e.pz * e.rz3 + 2 * e.ca * e.nz * e.pz * e.rz3 - 2 * e.nx * e.px * e.rx2rz - 2 * e.nx * e.pz *
  e.rxrz2 - 2 * e.nz * e.px * e.rxrz2 - 2 * e.ny * e.py * e.ry2rz - 2 * e.ny * e.pz * e.ryrz2 - 2 * e.nz * e.py * e.ryrz2 + e.nx *
  e.pz * e.rx * (e.rx2 + e.ry2 + e.rz2) + e.nz * e.px * e.rx * (e.rx2 + e.ry2 + e.rz2) + e.ny * e.pz * e.ry * (e.rx2 + e.ry2 +
  e.rz2) + e.nz * e.py * e.ry * (e.rx2 + e.ry2 + e.rz2) + 2 * e.nz * e.pz * e.rz * (e.rx2 + e.ry2 + e.rz2) - e.ca * e.nx * e.py *
  e.rz2 * (e.rx2 + e.ry2 + e.rz2) + e.ca * e.ny * e.px * e.rz2 * (e.rx2 + e.ry2 + e.rz2) - 2 * e.nx * e.py * e.rxryrz - 2 * e.ny *
  e.px * e.rxryrz - e.a3 * e.nx * e.px * e.rz * e.sa + e.a * e.nx * e.py * e.rz2 * e.sa - e.a * e.ny * e.px * e.rz2 * e.sa - e.a3
  * e.ny * e.py * e.rz * e.sa + e.a * e.nz * e.pz * e.rz3 * e.sa - e.a3 * e.nz * e.pz * e.rz * e.sa + 2 * e.ca * e.nx * e.px *
  e.rx2rz + 2 * e.ca * e.nx * e.pz * e.rxrz2 + 2 * e.ca * e.nz * e.px * e.rxrz2 + 2 * e.ca * e.ny * e.py * e.ry2rz + 2 * e.ca *
  e.ny * e.pz * e.ryrz2 + 2 * e.ca * e.nz * e.py * e.ryrz2 - e.ca * e.nx * e.pz * e.rx * (e.rx2 + e.ry2 + e.rz2) - e.ca * e.nz *
  e.px * e.rx * (e.rx2 + e.ry2 + e.rz2) - e.ca * e.ny * e.pz * e.ry * (e.rx2 + e.ry2 + e.rz2) - e.ca * e.nz * e.py * e.ry * (e.rx2
  + e.ry2 + e.rz2) - 2 * e.ca * e.nz * e.pz * e.rz * (e.rx2 + e.ry2 + e.rz2) + e.a * e.nx * e.px * e.rx2rz * e.sa + e.a * e.nx *
  e.pz * e.rxrz2 * e.sa + e.a * e.nz * e.px * e.rxrz2 * e.sa + e.a * e.ny * e.py * e.ry2rz * e.sa + e.a * e.ny * e.pz * e.ryrz2 *
  e.sa + e.a * e.nz * e.py * e.ryrz2 * e.sa + e.ca * e.nx * e.pz * e.ryrz * (e.rx2 + e.ry2 + e.rz2) - e.ca * e.ny * e.pz * e.rxrz
  * (e.rx2 + e.ry2 + e.rz2) - e.ca * e.nz * e.px * e.ryrz * (e.rx2 + e.ry2 + e.rz2) + e.ca * e.nz * e.py * e.rxrz * (e.rx2 + e.ry2
  + e.rz2) - e.a * e.nx * e.pz * e.ryrz * e.sa + e.a * e.ny * e.pz * e.rxrz * e.sa + e.a * e.nz * e.px * e.ryrz * e.sa - e.a *
  e.nz * e.py * e.rxrz * e.sa + 2 * e.ca * e.nx * e.py * e.rxryrz + 2 * e.ca * e.ny * e.px * e.rxryrz + e.a * e.nx * e.py *
  e.rxryrz * e.sa + e.a * e.ny * e.px * e.rxryrz * e.sa) / (2 * e.a4)

/-- Entry (2, 3), covariance-inl.hpp:3046-3071. -/
noncomputable def e23 (e : Env) : ℝ :=
  e.nx * (2 * e.nz * (e.px * (e.a2 * e.rx - 2 * e.rxrz2 + 2 * e.ca * e.rxrz2 - e.a2 * e.ca * e.rx + e.a * e.ryrz * e.sa - e.a2 *
  e.ca * e.ryrz + e.a * e.rxrz2 * e.sa) / e.a4 + e.py * (e.a2 * e.ry - 2 * e.ryrz2 + 2 * e.ca * e.ryrz2 - e.a2 * e.ca * e.ry - e.a
  * e.rxrz * e.sa + e.a2 * e.ca * e.rxrz + e.a * e.ryrz2 * e.sa) / e.a4 - e.pz * e.rz * (e.a2 - e.rz2) * (2 * e.ca + e.a * e.sa -
  2) / e.a4) - 2 * e.nx * (e.py * (e.a3 * e.sa - e.a * e.rz2 * e.sa + e.a2 * e.ca * e.rz2 + 2 * e.rxryrz - 2 * e.ca * e.rxryrz -
  e.a * e.rxryrz * e.sa) / e.a4 - e.pz * (e.a2 * e.rx - 2 * e.rxrz2 + 2 * e.ca * e.rxrz2 - e.a2 * e.ca * e.rx - e.a * e.ryrz *
  e.sa + e.a2 * e.ca * e.ryrz + e.a * e.rxrz2 * e.sa) / e.a4 + e.px * e.rz * (e.a3 * e.sa - 2 * e.ca * e.rx2 + 2 * e.rx2 - e.a *
  e.rx2 * e.sa) / e.a4) + 2 * e.ny * (e.pz * (e.a2 * e.ry - 2 * e.ryrz2 + 2 * e.ca * e.ryrz2 - e.a2 * e.ca * e.ry + e.a * e.rxrz *
  e.sa - e.a2 * e.ca * e.rxrz + e.a * e.ryrz2 * e.sa) / e.a4 + e.px * (e.a3 * e.sa - e.a * e.rz2 * e.sa + e.a2 * e.ca * e.rz2 - 2
  * e.rxryrz + 2 * e.ca * e.rxryrz + e.a * e.rxryrz * e.sa) / e.a4 - e.py * e.rz * (e.a3 * e.sa - 2 * e.ca * e.ry2 + 2 * e.ry2 -
  e.a * e.ry2 * e.sa) / e.a4)) / 2

/-- Entry (2, 4), covariance-inl.hpp:3072-3097. -/
noncomputable def e24 (e : Env) : ℝ :=
  e.ny * (2 * e.nz * (e.px * (e.a2 * e.rx - 2 * e.rxrz2 + 2 * e.ca * e.rxrz2 - e.a2 * e.ca * e.rx + e.a * e.ryrz * e.sa - e.a2 *
  e.ca * e.ryrz + e.a * e.rxrz2 * e.sa) / e.a4 + e.py * (e.a2 * e.ry - 2 * e.ryrz2 + 2 * e.ca * e.ryrz2 - e.a2 * e.ca * e.ry - e.a
  * e.rxrz * e.sa + e.a2 * e.ca * e.rxrz + e.a * e.ryrz2 * e.sa) / e.a4 - e.pz * e.rz * (e.a2 - e.rz2) * (2 * e.ca + e.a * e.sa -
  2) / e.a4) - 2 * e.nx * (e.py * (e.a3 * e.sa - e.a * e.rz2 * e.sa + e.a2 * e.ca * e.rz2 + 2 * e.rxryrz - 2 * e.ca * e.rxryrz -
  e.a * e.rxryrz * e.sa) / e.a4 - e.pz * (e.a2 * e.rx - 2 * e.rxrz2 + 2 * e.ca * e.rxrz2 - e.a2 * e.ca * e.rx - e.a * e.ryrz *
  e.sa + e.a2 * e.ca * e.ryrz + e.a * e.rxrz2 * e.sa) / e.a4 + e.px * e.rz * (e.a3 * e.sa - 2 * e.ca * e.rx2 + 2 * e.rx2 - e.a *
  e.rx2 * e.sa) / e.a4) + 2 * e.ny * (e.pz * (e.a2 * e.ry - 2 * e.ryrz2 + 2 * e.ca * e.ryrz2 - e.a2 * e.ca * e.ry + e.a * e.rxrz *
  e.sa - e.a2 * e.ca * e.rxrz + e.a * e.ryrz2 * e.sa) / e.a4 + e.px * (e.a3 * e.sa - e.a * e.rz2 * e.sa + e.a2 * e.ca * e.rz2 - 2
  * e.rxryrz + 2 * e.ca * e.rxryrz + e.a * e.rxryrz * e.sa) / e.a4 - e.py * e.rz * (e.a3 * e.sa - 2 * e.ca * e.ry2 + 2 * e.ry2 -
  e.a * e.ry2 * e.sa) / e.a4)) / 2

/-- Entry (2, 5), covariance-inl.hpp:3098-3123. -/
noncomputable def e25 (e : Env) : ℝ :=
  e.nz * (2 * e.nz * (e.px * (e.a2 * e.rx - 2 * e.rxrz2 + 2 * e.ca * e.rxrz2 - e.a2 * e.ca * e.rx + e.a * e.ryrz * e.sa - e.a2 *
  e.ca * e.ryrz + e.a * e.rxrz2 * e.sa) / e.a4 + e.py * (e.a2 * e.ry - 2 * e.ryrz2 + 2 * e.ca * e.ryrz2 - e.a2 * e.ca * e.ry - e.a
  * e.rxrz * e.sa + e.a2 * e.ca * e.rxrz + e.a * e.ryrz2 * e.sa) / e.a4 - e.pz * e.rz * (e.a2 - e.rz2) * (2 * e.ca + e.a * e.sa -
  2) / e.a4) - 2 * e.nx * (e.py * (e.a3 * e.sa - e.a * e.rz2 * e.sa + e.a2 * e.ca * e.rz2 + 2 * e.rxryrz - 2 * e.ca * e.rxryrz -
  e.a * e.rxryrz * e.sa) / e.a4 - e.pz * (e.a2 * e.rx - 2 * e.rxrz2 + 2 * e.ca * e.rxrz2 - e.a2 * e.ca * e.rx - e.a * e.ryrz *
  e.sa + e.a2 * e.ca * e.ryrz + e.a * e.rxrz2 * e.sa) / e.a4 + e.px * e.rz * (e.a3 * e.sa - 2 * e.ca * e.rx2 + 2 * e.rx2 - e.a *
  e.rx2 * e.sa) / e.a4) + 2 * e.ny * (e.pz * (e.a2 * e.ry - 2 * e.ryrz2 + 2 * e.ca * e.ryrz2 - e.a2 * e.ca * e.ry + e.a * e.rxrz *
  e.sa - e.a2 * e.ca * e.rxrz + e.a * e.ryrz2 * e.sa) / e.a4 + e.px * (e.a3 * e.sa - e.a * e.rz2 * e.sa + e.a2 * e.ca * e.rz2 - 2
  * e.rxryrz + 2 * e.ca * e.rxryrz + e.a * e.rxryrz * e.sa) / e.a4 - e.py * e.rz * (e.a3 * e.sa - 2 * e.ca * e.ry2 + 2 * e.ry2 -
  e.a * e.ry2 * e.sa) / e.a4)) / 2

/-- Entry (3, 0), covariance-inl.hpp:3124-3145. -/
noncomputable def e30 (e : Env) : ℝ :=
  e.nx * (e.a3 * e.nz * e.py * e.sa - e.a3 * e.ny * e.pz * e.sa - 2 * e.nx * e.px * e.rx3 + 2 * e.ca * e.nx * e.px * e.rx3 - 2 *
  e.nx * e.py * e.rx2ry - 2 * e.ny * e.px * e.rx2ry - 2 * e.ny * e.py * e.rxry2 - 2 * e.nx * e.pz * e.rx2rz - 2 * e.nz * e.px *
  e.rx2rz - 2 * e.nz * e.pz * e.rxrz2 + 2 * e.nx * e.px * e.rx * (e.rx2 + e.ry2 + e.rz2) + e.nx * e.py * e.ry * (e.rx2 + e.ry2 +
  e.rz2) + e.ny * e.px * e.ry * (e.rx2 + e.ry2 + e.rz2) + e.nx * e.pz * e.rz * (e.rx2 + e.ry2 + e.rz2) + e.nz * e.px * e.rz *
  (e.rx2 + e.ry2 + e.rz2) - e.ca * e.ny * e.pz * e.rx2 * (e.rx2 + e.ry2 + e.rz2) + e.ca * e.nz * e.py * e.rx2 * (e.rx2 + e.ry2 +
  e.rz2) - 2 * e.ny * e.pz * e.rxryrz - 2 * e.nz * e.py * e.rxryrz + e.a * e.nx * e.px * e.rx3 * e.sa - e.a3 * e.nx * e.px * e.rx
  * e.sa - e.a3 * e.ny * e.py * e.rx * e.sa + e.a * e.ny * e.pz * e.rx2 * e.sa - e.a * e.nz * e.py * e.rx2 * e.sa - e.a3 * e.nz *
  e.pz * e.rx * e.sa + 2 * e.ca * e.nx * e.py * e.rx2ry + 2 * e.ca * e.ny * e.px * e.rx2ry + 2 * e.ca * e.ny * e.py * e.rxry2 + 2
  * e.ca * e.nx * e.pz * e.rx2rz + 2 * e.ca * e.nz * e.px * e.rx2rz + 2 * e.ca * e.nz * e.pz * e.rxrz2 - 2 * e.ca * e.nx * e.px *
  e.rx * (e.rx2 + e.ry2 + e.rz2) - e.ca * e.nx * e.py * e.ry * (e.rx2 + e.ry2 + e.rz2) - e.ca * e.ny * e.px * e.ry * (e.rx2 +
  e.ry2 + e.rz2) - e.ca * e.nx * e.pz * e.rz * (e.rx2 + e.ry2 + e.rz2) - e.ca * e.nz * e.px * e.rz * (e.rx2 + e.ry2 + e.rz2) + e.a
  * e.nx * e.py * e.rx2ry * e.sa + e.a * e.ny * e.px * e.rx2ry * e.sa + e.a * e.ny * e.py * e.rxry2 * e.sa + e.a * e.nx * e.pz *
  e.rx2rz * e.sa + e.a * e.nz * e.px * e.rx2rz * e.sa + e.a * e.nz * e.pz * e.rxrz2 * e.sa - e.ca * e.nx * e.py * e.rxrz * (e.rx2
  + e.ry2 + e.rz2) + e.ca * e.nx * e.pz * e.rxry * (e.rx2 + e.ry2 + e.rz2) + e.ca * e.ny * e.px * e.rxrz * (e.rx2 + e.ry2 + e.rz2)
  - e.ca * e.nz * e.px * e.rxry * (e.rx2 + e.ry2 + e.rz2) + e.a * e.nx * e.py * e.rxrz * e.sa - e.a * e.nx * e.pz * e.rxry * e.sa
  - e.a * e.ny * e.px * e.rxrz * e.sa + e.a * e.nz * e.px * e.rxry * e.sa + 2 * e.ca * e.ny * e.pz * e.rxryrz + 2 * e.ca * e.nz *
  e.py * e.rxryrz + e.a * e.ny * e.pz * e.rxryrz * e.sa + e.a * e.nz * e.py * e.rxryrz * e.sa) / e.a4

/-- Entry (3, 1), covariance-inl.hpp:3146-3167. -/
noncomputable def e31 (e : Env) : ℝ :=
  e.nx * (e.a3 * e.nx * e.pz * e.sa - 2 * e.ny * e.py * e.ry3 - e.a3 * e.nz * e.px * e.sa + 2 * e.ca * e.ny * e.py * e.ry3 - 2 *
  e.nx * e.px * e.rx2ry - 2 * e.nx * e.py * e.rxry2 - 2 * e.ny * e.px * e.rxry2 - 2 * e.ny * e.pz * e.ry2rz - 2 * e.nz * e.py *
  e.ry2rz - 2 * e.nz * e.pz * e.ryrz2 + e.nx * e.py * e.rx * (e.rx2 + e.ry2 + e.rz2) + e.ny * e.px * e.rx * (e.rx2 + e.ry2 +
  e.rz2) + 2 * e.ny * e.py * e.ry * (e.rx2 + e.ry2 + e.rz2) + e.ny * e.pz * e.rz * (e.rx2 + e.ry2 + e.rz2) + e.nz * e.py * e.rz *
  (e.rx2 + e.ry2 + e.rz2) + e.ca * e.nx * e.pz * e.ry2 * (e.rx2 + e.ry2 + e.rz2) - e.ca * e.nz * e.px * e.ry2 * (e.rx2 + e.ry2 +
  e.rz2) - 2 * e.nx * e.pz * e.rxryrz - 2 * e.nz * e.px * e.rxryrz - e.a3 * e.nx * e.px * e.ry * e.sa - e.a * e.nx * e.pz * e.ry2
  * e.sa + e.a * e.nz * e.px * e.ry2 * e.sa + e.a * e.ny * e.py * e.ry3 * e.sa - e.a3 * e.ny * e.py * e.ry * e.sa - e.a3 * e.nz *
  e.pz * e.ry * e.sa + 2 * e.ca * e.nx * e.px * e.rx2ry + 2 * e.ca * e.nx * e.py * e.rxry2 + 2 * e.ca * e.ny * e.px * e.rxry2 + 2
  * e.ca * e.ny * e.pz * e.ry2rz + 2 * e.ca * e.nz * e.py * e.ry2rz + 2 * e.ca * e.nz * e.pz * e.ryrz2 - e.ca * e.nx * e.py * e.rx
  * (e.rx2 + e.ry2 + e.rz2) - e.ca * e.ny * e.px * e.rx * (e.rx2 + e.ry2 + e.rz2) - 2 * e.ca * e.ny * e.py * e.ry * (e.rx2 + e.ry2
  + e.rz2) - e.ca * e.ny * e.pz * e.rz * (e.rx2 + e.ry2 + e.rz2) - e.ca * e.nz * e.py * e.rz * (e.rx2 + e.ry2 + e.rz2) + e.a *
  e.nx * e.px * e.rx2ry * e.sa + e.a * e.nx * e.py * e.rxry2 * e.sa + e.a * e.ny * e.px * e.rxry2 * e.sa + e.a * e.ny * e.pz *
  e.ry2rz * e.sa + e.a * e.nz * e.py * e.ry2rz * e.sa + e.a * e.nz * e.pz * e.ryrz2 * e.sa - e.ca * e.nx * e.py * e.ryrz * (e.rx2
  + e.ry2 + e.rz2) + e.ca * e.ny * e.px * e.ryrz * (e.rx2 + e.ry2 + e.rz2) - e.ca * e.ny * e.pz * e.rxry * (e.rx2 + e.ry2 + e.rz2)
  + e.ca * e.nz * e.py * e.rxry * (e.rx2 + e.ry2 + e.rz2) + e.a * e.nx * e.py * e.ryrz * e.sa - e.a * e.ny * e.px * e.ryrz * e.sa
  + e.a * e.ny * e.pz * e.rxry * e.sa - e.a * e.nz * e.py * e.rxry * e.sa + 2 * e.ca * e.nx * e.pz * e.rxryrz + 2 * e.ca * e.nz *
  e.px * e.rxryrz + e.a * e.nx * e.pz * e.rxryrz * e.sa + e.a * e.nz * e.px * e.rxryrz * e.sa) / e.a4

/-- Entry (3, 2), covariance-inl.hpp:3168-3189. -/
noncomputable def e32 (e : Env) : ℝ :=
  e.nx * (e.a3 * e.ny * e.px * e.sa - e.a3 * e.nx * e.py * e.sa - 2 * e.nz * e.pz * e.rz3 + 2 * e.ca * e.nz * e.pz * e.rz3 - 2 *
  e.nx * e.px * e.rx2rz - 2 * e.nx * e.pz * e.rxrz2 - 2 * e.nz * e.px * e.rxrz2 - 2 * e.ny * e.py * e.ry2rz - 2 * e.ny * e.pz *
  e.ryrz2 - 2 * e.nz * e.py * e.ryrz2 + e.nx * e.pz * e.rx * (e.rx2 + e.ry2 + e.rz2) + e.nz * e.px * e.rx * (e.rx2 + e.ry2 +
  e.rz2) + e.ny * e.pz * e.ry * (e.rx2 + e.ry2 + e.rz2) + e.nz * e.py * e.ry * (e.rx2 + e.ry2 + e.rz2) + 2 * e.nz * e.pz * e.rz *
  (e.rx2 + e.ry2 + e.rz2) - e.ca * e.nx * e.py * e.rz2 * (e.rx2 + e.ry2 + e.rz2) + e.ca * e.ny * e.px * e.rz2 * (e.rx2 + e.ry2 +
  e.rz2) - 2 * e.nx * e.py * e.rxryrz - 2 * e.ny * e.px * e.rxryrz - e.a3 * e.nx * e.px * e.rz * e.sa + e.a * e.nx * e.py * e.rz2
  * e.sa - e.a * e.ny * e.px * e.rz2 * e.sa - e.a3 * e.ny * e.py * e.rz * e.sa + e.a * e.nz * e.pz * e.rz3 * e.sa - e.a3 * e.nz *
  e.pz * e.rz * e.sa + 2 * e.ca * e.nx * e.px * e.rx2rz + 2 * e.ca * e.nx * e.pz * e.rxrz2 + 2 * e.ca * e.nz * e.px * e.rxrz2 + 2
  * e.ca * e.ny * e.py * e.ry2rz + 2 * e.ca * e.ny * e.pz * e.ryrz2 + 2 * e.ca * e.nz * e.py * e.ryrz2 - e.ca * e.nx * e.pz * e.rx
  * (e.rx2 + e.ry2 + e.rz2) - e.ca * e.nz * e.px * e.rx * (e.rx2 + e.ry2 + e.rz2) - e.ca * e.ny * e.pz * e.ry * (e.rx2 + e.ry2 +
  e.rz2) - e.ca * e.nz * e.py * e.ry * (e.rx2 + e.ry2 + e.rz2) - 2 * e.ca * e.nz * e.pz * e.rz * (e.rx2 + e.ry2 + e.rz2) + e.a *
  e.nx * e.px * e.rx2rz * e.sa + e.a * e.nx * e.pz * e.rxrz2 * e.sa + e.a * e.nz * e.px * e.rxrz2 * e.sa + e.a * e.ny * e.py *
  e.ry2rz * e.sa + e.a * e.ny * e.pz * e.ryrz2 * e.sa + e.a * e.nz * e.py * e.ryrz2 * e.sa + e.ca * e.nx * e.pz * e.ryrz * (e.rx2
  + e.ry2 + e.rz2) - e.ca * e.ny * e.pz * e.rxrz * (e.rx2 + e.ry2 + e.rz2) - e.ca * e.nz * e.px * e.ryrz * (e.rx2 + e.ry2 + e.rz2)
  + e.ca * e.nz * e.py * e.rxrz * (e.rx2 + e.ry2 + e.rz2) - e.a * e.nx * e.pz * e.ryrz * e.sa + e.a * e.ny * e.pz * e.rxrz * e.sa
  + e.a * e.nz * e.px * e.ryrz * e.sa - e.a * e.nz * e.py * e.rxrz * e.sa + 2 * e.ca * e.nx * e.py * e.rxryrz + 2 * e.ca * e.ny *
  e.px * e.rxryrz + e.a * e.nx * e.py * e.rxryrz * e.sa + e.a * e.ny * e.px * e.rxryrz * e.sa) / e.a4

/-- Entry (3, 3), covariance-inl.hpp:3190-3190. -/
noncomputable def e33 (e : Env) : ℝ :=
  e.nx2

/-- Entry (3, 4), covariance-inl.hpp:3191-3191. -/
noncomputable def e34 (e : Env) : ℝ :=
  e.nx * e.ny

/-- Entry (3, 5), covariance-inl.hpp:3192-3192. -/
noncomputable def e35 (e : Env) : ℝ :=
  e.nx * e.nz

/-- Entry (4, 0), covariance-inl.hpp:3193-3214. -/
noncomputable def e40 (e : Env) : ℝ :=
  e.ny * (e.a3 * e.nz * e.py * e.sa - e.a3 * e.ny * e.pz * e.sa - 2 * e.nx * e.px * e.rx3 + 2 * e.ca * e.nx * e.px * e.rx3 - 2 *
  e.nx * e.py * e.rx2ry - 2 * e.ny * e.px * e.rx2ry - 2 * e.ny * e.py * e.rxry2 - 2 * e.nx * e.pz * e.rx2rz - 2 * e.nz * e.px *
  e.rx2rz - 2 * e.nz * e.pz * e.rxrz2 + 2 * e.nx * e.px * e.rx * (e.rx2 + e.ry2 + e.rz2) + e.nx * e.py * e.ry * (e.rx2 + e.ry2 +
  e.rz2) + e.ny * e.px * e.ry * (e.rx2 + e.ry2 + e.rz2) + e.nx * e.pz * e.rz * (e.rx2 + e.ry2 + e.rz2) + e.nz * e.px * e.rz *
  (e.rx2 + e.ry2 + e.rz2) - e.ca * e.ny * e.pz * e.rx2 * (e.rx2 + e.ry2 + e.rz2) + e.ca * e.nz * e.py * e.rx2 * (e.rx2 + e.ry2 +
  e.rz2) - 2 * e.ny * e.pz * e.rxryrz - 2 * e.nz * e.py * e.rxryrz + e.a * e.nx * e.px * e.rx3 * e.sa - e.a3 * e.nx * e.px * e.rx
  * e.sa - e.a3 * e.ny * e.py * e.rx * e.sa + e.a * e.ny * e.pz * e.rx2 * e.sa - e.a * e.nz * e.py * e.rx2 * e.sa - e.a3 * e.nz *
  e.pz * e.rx * e.sa + 2 * e.ca * e.nx * e.py * e.rx2ry + 2 * e.ca * e.ny * e.px * e.rx2ry + 2 * e.ca * e.ny * e.py * e.rxry2 + 2
  * e.ca * e.nx * e.pz * e.rx2rz + 2 * e.ca * e.nz * e.px * e.rx2rz + 2 * e.ca * e.nz * e.pz * e.rxrz2 - 2 * e.ca * e.nx * e.px *
  e.rx * (e.rx2 + e.ry2 + e.rz2) - e.ca * e.nx * e.py * e.ry * (e.rx2 + e.ry2 + e.rz2) - e.ca * e.ny * e.px * e.ry * (e.rx2 +
  e.ry2 + e.rz2) - e.ca * e.nx * e.pz * e.rz * (e.rx2 + e.ry2 + e.rz2) - e.ca * e.nz * e.px * e.rz * (e.rx2 + e.ry2 + e.rz2) + e.a
  * e.nx * e.py * e.rx2ry * e.sa + e.a * e.ny * e.px * e.rx2ry * e.sa + e.a * e.ny * e.py * e.rxry2 * e.sa + e.a * e.nx * e.pz *
  e.rx2rz * e.sa + e.a * e.nz * e.px * e.rx2rz * e.sa + e.a * e.nz * e.pz * e.rxrz2 * e.sa - e.ca * e.nx * e.py * e.rxrz * (e.rx2
  + e.ry2 + e.rz2) + e.ca * e.nx * e.pz * e.rxry * (e.rx2 + e.ry2 + e.rz2) + e.ca * e.ny * e.px * e.rxrz * (e.rx2 + e.ry2 + e.rz2)
  - e.ca * e.nz * e.px * e.rxry * (e.rx2 + e.ry2 + e.rz2) + e.a * e.nx * e.py * e.rxrz * e.sa - e.a * e.nx * e.pz * e.rxry * e.sa
  - e.a * e.ny * e.px * e.rxrz * e.sa + e.a * e.nz * e.px * e.rxry * e.sa + 2 * e.ca * e.ny * e.pz * e.rxryrz + 2 * e.ca * e.nz *
  e.py * e.rxryrz + e.a * e.ny * e.pz * e.rxryrz * e.sa + e.a * e.nz * e.py * e.rxryrz * e.sa) / e.a4

/-- Entry (4, 1), covariance-inl.hpp:3215-3236. -/
noncomputable def e41 (e : Env) : ℝ :=
  e.ny * (e.a3 * e.nx * e.pz * e.sa - 2 * e.ny * e.py * e.ry3 - e.a3 * e.nz * e.px * e.sa + 2 * e.ca * e.ny * e.py * e.ry3 - 2 *
  e.nx * e.px * e.rx2ry - 2 * e.nx * e.py * e.rxry2 - 2 * e.ny * e.px * e.rxry2 - 2 * e.ny * e.pz * e.ry2rz - 2 * e.nz * e.py *
  e.ry2rz - 2 * e.nz * e.pz * e.ryrz2 + e.nx * e.py * e.rx * (e.rx2 + e.ry2 + e.rz2) + e.ny * e.px * e.rx * (e.rx2 + e.ry2 +
  e.rz2) + 2 * e.ny * e.py * e.ry * (e.rx2 + e.ry2 + e.rz2) + e.ny * e.pz * e.rz * (e.rx2 + e.ry2 + e.rz2) + e.nz * e.py * e.rz *
  (e.rx2 + e.ry2 + e.rz2) + e.ca * e.nx * e.pz * e.ry2 * (e.rx2 + e.ry2 + e.rz2) - e.ca * e.nz * e.px * e.ry2 * (e.rx2 + e.ry2 +
  e.rz2) - 2 * e.nx * e.pz * e.rxryrz - 2 * e.nz * e.px * e.rxryrz - e.a3 * e.nx * e.px * e.ry * e.sa - e.a * e.nx * e.pz * e.ry2
  * e.sa + e.a * e.nz * e.px * e.ry2 * e.sa + e.a * e.ny * e.py * e.ry3 * e.sa - e.a3 * e.ny * e.py * e.ry * e.sa - e.a3 * e.nz *
  e.pz * e.ry * e.sa + 2 * e.ca * e.nx * e.px * e.rx2ry + 2 * e.ca * e.nx * e.py * e.rxry2 + 2 * e.ca * e.ny * e.px * e.rxry2 + 2
  * e.ca * e.ny * e.pz * e.ry2rz + 2 * e.ca * e.nz * e.py * e.ry2rz + 2 * e.ca * e.nz * e.pz * e.ryrz2 - e.ca * e.nx * e.py * e.rx
  * (e.rx2 + e.ry2 + e.rz2) - e.ca * e.ny * e.px * e.rx * (e.rx2 + e.ry2 + e.rz2) - 2 * e.ca * e.ny * e.py * e.ry * (e.rx2 + e.ry2
  + e.rz2) - e.ca * e.ny * e.pz * e.rz * (e.rx2 + e.ry2 + e.rz2) - e.ca * e.nz * e.py * e.rz * (e.rx2 + e.ry2 + e.rz2) + e.a *
  e.nx * e.px * e.rx2ry * e.sa + e.a * e.nx * e.py * e.rxry2 * e.sa + e.a * e.ny * e.px * e.rxry2 * e.sa + e.a * e.ny * e.pz *
  e.ry2rz * e.sa + e.a * e.nz * e.py * e.ry2rz * e.sa + e.a * e.nz * e.pz * e.ryrz2 * e.sa - e.ca * e.nx * e.py * e.ryrz * (e.rx2
  + e.ry2 + e.rz2) + e.ca * e.ny * e.px * e.ryrz * (e.rx2 + e.ry2 + e.rz2) - e.ca * e.ny * e.pz * e.rxry * (e.rx2 + e.ry2 + e.rz2)
  + e.ca * e.nz * e.py * e.rxry * (e.rx2 + e.ry2 + e.rz2) + e.a * e.nx * e.py * e.ryrz * e.sa - e.a * e.ny * e.px * e.ryrz * e.sa
  + e.a * e.ny * e.pz * e.rxry * e.sa - e.a * e.nz * e.py * e.rxry * e.sa + 2 * e.ca * e.nx * e.pz * e.rxryrz + 2 * e.ca * e.nz *
  e.px * e.rxryrz + e.a * e.nx * e.pz * e.rxryrz * e.sa + e.a * e.nz * e.px * e.rxryrz * e.sa) / e.a4

/-- Entry (4, 2), covariance-inl.hpp:3237-3258. -/
noncomputable def e42 (e : Env) : ℝ :=
  e.ny * (e.a3 * e.ny * e.px * e.sa - e.a3 * e.nx * e.py * e.sa - 2 * e.nz * e.pz * e.rz3 + 2 * e.ca * e.nz * e.pz * e.rz3 - 2 *
  e.nx * e.px * e.rx2rz - 2 * e.nx * e.pz * e.rxrz2 - 2 * e.nz * e.px * e.rxrz2 - 2 * e.ny * e.py * e.ry2rz - 2 * e.ny * e.pz *
  e.ryrz2 - 2 * e.nz * e.py * e.ryrz2 + e.nx * e.pz * e.rx * (e.rx2 + e.ry2 + e.rz2) + e.nz * e.px * e.rx * (e.rx2 + e.ry2 +
  e.rz2) + e.ny * e.pz * e.ry * (e.rx2 + e.ry2 + e.rz2) + e.nz * e.py * e.ry * (e.rx2 + e.ry2 + e.rz2) + 2 * e.nz * e.pz * e.rz *
  (e.rx2 + e.ry2 + e.rz2) - e.ca * e.nx * e.py * e.rz2 * (e.rx2 + e.ry2 + e.rz2) + e.ca * e.ny * e.px * e.rz2 * (e.rx2 + e.ry2 +
  e.rz2) - 2 * e.nx * e.py * e.rxryrz - 2 * e.ny * e.px * e.rxryrz - e.a3 * e.nx * e.px * e.rz * e.sa + e.a * e.nx * e.py * e.rz2
  * e.sa - e.a * e.ny * e.px * e.rz2 * e.sa - e.a3 * e.ny * e.py * e.rz * e.sa + e.a * e.nz * e.pz * e.rz3 * e.sa - e.a3 * e.nz *
  e.pz * e.rz * e.sa + 2 * e.ca * e.nx * e.px * e.rx2rz + 2 * e.ca * e.nx * e.pz * e.rxrz2 + 2 * e.ca * e.nz * e.px * e.rxrz2 + 2
  * e.ca * e.ny * e.py * e.ry2rz + 2 * e.ca * e.ny * e.pz * e.ryrz2 + 2 * e.ca * e.nz * e.py * e.ryrz2 - e.ca * e.nx * e.pz * e.rx
  * (e.rx2 + e.ry2 + e.rz2) - e.ca * e.nz * e.px * e.rx * (e.rx2 + e.ry2 + e.rz2) - e.ca * e.ny * e.pz * e.ry * (e.rx2 + e.ry2 +
  e.rz2) - e.ca * e.nz * e.py * e.ry * (e.rx2 + e.ry2 + e.rz2) - 2 * e.ca * e.nz * e.pz * e.rz * (e.rx2 + e.ry2 + e.rz2) + e.a *
  e.nx * e.px * e.rx2rz * e.sa + e.a * e.nx * e.pz * e.rxrz2 * e.sa + e.a * e.nz * e.px * e.rxrz2 * e.sa + e.a * e.ny * e.py *
  e.ry2rz * e.sa + e.a * e.ny * e.pz * e.ryrz2 * e.sa + e.a * e.nz * e.py * e.ryrz2 * e.sa + e.ca * e.nx * e.pz * e.ryrz * (e.rx2
  + e.ry2 + e.rz2) - e.ca * e.ny * e.pz * e.rxrz * (e.rx2 + e.ry2 + e.rz2) - e.ca * e.nz * e.px * e.ryrz * (e.rx2 + e.ry2 + e.rz2)
  + e.ca * e.nz * e.py * e.rxrz * (e.rx2 + e.ry2 + e.rz2) - e.a * e.nx * e.pz * e.ryrz * e.sa + e.a * e.ny * e.pz * e.rxrz * e.sa
  + e.a * e.nz * e.px * e.ryrz * e.sa - e.a * e.nz * e.py * e.rxrz * e.sa + 2 * e.ca * e.nx * e.py * e.rxryrz + 2 * e.ca * e.ny *
  e.px * e.rxryrz + e.a * e.nx * e.py * e.rxryrz * e.sa + e.a * e.ny * e.px * e.rxryrz * e.sa) / e.a4

/-- Entry (4, 3), covariance-inl.hpp:3259-3259. -/
noncomputable def e43 (e : Env) : ℝ :=
  e.nx * e.ny

/-- Entry (4, 4), covariance-inl.hpp:3260-3260. -/
noncomputable def e44 (e : Env) : ℝ :=
  e.ny2

/-- Entry (4, 5), covariance-inl.hpp:3261-3261. -/
noncomputable def e45 (e : Env) : ℝ :=
  e.ny * e.nz

/-- Entry (5, 0), covariance-inl.hpp:3262-3283. -/
noncomputable def e50 (e : Env) : ℝ :=
  e.nz * (e.a3 * e.nz * e.py * e.sa - e.a3 * e.ny * e.pz * e.sa - 2 * e.nx * e.px * e.rx3 + 2 * e.ca * e.nx * e.px * e.rx3 - 2 *
  e.nx * e.py * e.rx2ry - 2 * e.ny * e.px * e.rx2ry - 2 * e.ny * e.py * e.rxry2 - 2 * e.nx * e.pz * e.rx2rz - 2 * e.nz * e.px *
  e.rx2rz - 2 * e.nz * e.pz * e.rxrz2 + 2 * e.nx * e.px * e.rx * (e.rx2 + e.ry2 + e.rz2) + e.nx * e.py * e.ry * (e.rx2 + e.ry2 +
  e.rz2) + e.ny * e.px * e.ry * (e.rx2 + e.ry2 + e.rz2) + e.nx * e.pz * e.rz * (e.rx2 + e.ry2 + e.rz2) + e.nz * e.px * e.rz *
  (e.rx2 + e.ry2 + e.rz2) - e.ca * e.ny * e.pz * e.rx2 * (e.rx2 + e.ry2 + e.rz2) + e.ca * e.nz * e.py * e.rx2 * (e.rx2 + e.ry2 +
  e.rz2) - 2 * e.ny * e.pz * e.rxryrz - 2 * e.nz * e.py * e.rxryrz + e.a * e.nx * e.px * e.rx3 * e.sa - e.a3 * e.nx * e.px * e.rx
  * e.sa - e.a3 * e.ny * e.py * e.rx * e.sa + e.a * e.ny * e.pz * e.rx2 * e.sa - e.a * e.nz * e.py * e.rx2 * e.sa - e.a3 * e.nz *
  e.pz * e.rx * e.sa + 2 * e.ca * e.nx * e.py * e.rx2ry + 2 * e.ca * e.ny * e.px * e.rx2ry + 2 * e.ca * e.ny * e.py * e.rxry2 + 2
  * e.ca * e.nx * e.pz * e.rx2rz + 2 * e.ca * e.nz * e.px * e.rx2rz + 2 * e.ca * e.nz * e.pz * e.rxrz2 - 2 * e.ca * e.nx * e.px *
  e.rx * (e.rx2 + e.ry2 + e.rz2) - e.ca * e.nx * e.py * e.ry * (e.rx2 + e.ry2 + e.rz2) - e.ca * e.ny * e.px * e.ry * (e.rx2 +
  e.ry2 + e.rz2) - e.ca * e.nx * e.pz * e.rz * (e.rx2 + e.ry2 + e.rz2) - e.ca * e.nz * e.px * e.rz * (e.rx2 + e.ry2 + e.rz2) + e.a
  * e.nx * e.py * e.rx2ry * e.sa + e.a * e.ny * e.px * e.rx2ry * e.sa + e.a * e.ny * e.py * e.rxry2 * e.sa + e.a * e.nx * e.pz *
  e.rx2rz * e.sa + e.a * e.nz * e.px * e.rx2rz * e.sa + e.a * e.nz * e.pz * e.rxrz2 * e.sa - e.ca * e.nx * e.py * e.rxrz * (e.rx2
  + e.ry2 + e.rz2) + e.ca * e.nx * e.pz * e.rxry * (e.rx2 + e.ry2 + e.rz2) + e.ca * e.ny * e.px * e.rxrz * (e.rx2 + e.ry2 + e.rz2)
  - e.ca * e.nz * e.px * e.rxry * (e.rx2 + e.ry2 + e.rz2) + e.a * e.nx * e.py * e.rxrz * e.sa - e.a * e.nx * e.pz * e.rxry * e.sa
  - e.a * e.ny * e.px * e.rxrz * e.sa + e.a * e.nz * e.px * e.rxry * e.sa + 2 * e.ca * e.ny * e.pz * e.rxryrz + 2 * e.ca * e.nz *
  e.py * e.rxryrz + e.a * e.ny * e.pz * e.rxryrz * e.sa + e.a * e.nz * e.py * e.rxryrz * e.sa) / e.a4

/-- Entry (5, 1), covariance-inl.hpp:3284-3305. -/
noncomputable def e51 (e : Env) : ℝ :=
  e.nz * (e.a3 * e.nx * e.pz * e.sa - 2 * e.ny * e.py * e.ry3 - e.a3 * e.nz * e.px * e.sa + 2 * e.ca * e.ny * e.py * e.ry3 - 2 *
  e.nx * e.px * e.rx2ry - 2 * e.nx * e.py * e.rxry2 - 2 * e.ny * e.px * e.rxry2 - 2 * e.ny * e.pz * e.ry2rz - 2 * e.nz * e.py *
  e.ry2rz - 2 * e.nz * e.pz * e.ryrz2 + e.nx * e.py * e.rx * (e.rx2 + e.ry2 + e.rz2) + e.ny * e.px * e.rx * (e.rx2 + e.ry2 +
  e.rz2) + 2 * e.ny * e.py * e.ry * (e.rx2 + e.ry2 + e.rz2) + e.ny * e.pz * e.rz * (e.rx2 + e.ry2 + e.rz2) + e.nz * e.py * e.rz *
  (e.rx2 + e.ry2 + e.rz2) + e.ca * e.nx * e.pz * e.ry2 * (e.rx2 + e.ry2 + e.rz2) - e.ca * e.nz * e.px * e.ry2 * (e.rx2 + e.ry2 +
  e.rz2) - 2 * e.nx * e.pz * e.rxryrz - 2 * e.nz * e.px * e.rxryrz - e.a3 * e.nx * e.px * e.ry * e.sa - e.a * e.nx * e.pz * e.ry2
  * e.sa + e.a * e.nz * e.px * e.ry2 * e.sa + e.a * e.ny * e.py * e.ry3 * e.sa - e.a3 * e.ny * e.py * e.ry * e.sa - e.a3 * e.nz *
  e.pz * e.ry * e.sa + 2 * e.ca * e.nx * e.px * e.rx2ry + 2 * e.ca * e.nx * e.py * e.rxry2 + 2 * e.ca * e.ny * e.px * e.rxry2 + 2
  * e.ca * e.ny * e.pz * e.ry2rz + 2 * e.ca * e.nz * e.py * e.ry2rz + 2 * e.ca * e.nz * e.pz * e.ryrz2 - e.ca * e.nx * e.py * e.rx
  * (e.rx2 + e.ry2 + e.rz2) - e.ca * e.ny * e.px * e.rx * (e.rx2 + e.ry2 + e.rz2) - 2 * e.ca * e.ny * e.py * e.ry * (e.rx2 + e.ry2
  + e.rz2) - e.ca * e.ny * e.pz * e.rz * (e.rx2 + e.ry2 + e.rz2) - e.ca * e.nz * e.py * e.rz * (e.rx2 + e.ry2 + e.rz2) + e.a *
  e.nx * e.px * e.rx2ry * e.sa + e.a * e.nx * e.py * e.rxry2 * e.sa + e.a * e.ny * e.px * e.rxry2 * e.sa + e.a * e.ny * e.pz *
  e.ry2rz * e.sa + e.a * e.nz * e.py * e.ry2rz * e.sa + e.a * e.nz * e.pz * e.ryrz2 * e.sa - e.ca * e.nx * e.py * e.ryrz * (e.rx2
  + e.ry2 + e.rz2) + e.ca * e.ny * e.px * e.ryrz * (e.rx2 + e.ry2 + e.rz2) - e.ca * e.ny * e.pz * e.rxry * (e.rx2 + e.ry2 + e.rz2)
  + e.ca * e.nz * e.py * e.rxry * (e.rx2 + e.ry2 + e.rz2) + e.a * e.nx * e.py * e.ryrz * e.sa - e.a * e.ny * e.px * e.ryrz * e.sa
  + e.a * e.ny * e.pz * e.rxry * e.sa - e.a * e.nz * e.py * e.rxry * e.sa + 2 * e.ca * e.nx * e.pz * e.rxryrz + 2 * e.ca * e.nz *
  e.px * e.rxryrz + e.a * e.nx * e.pz * e.rxryrz * e.sa + e.a * e.nz * e.px * e.rxryrz * e.sa) / e.a4

/-- Entry (5, 2), covariance-inl.hpp:3306-3327. -/
noncomputable def e52 (e : Env) : ℝ :=
  e.nz * (e.a3 * e.ny * e.px * e.sa - e.a3 * e.nx * e.py * e.sa - 2 * e.nz * e.pz * e.rz3 + 2 * e.ca * e.nz * e.pz * e.rz3 - 2 *
  e.nx * e.px * e.rx2rz - 2 * e.nx * e.pz * e.rxrz2 - 2 * e.nz * e.px * e.rxrz2 - 2 * e.ny * e.py * e.ry2rz - 2 * e.ny * e.pz *
  e.ryrz2 - 2 * e.nz * e.py * e.ryrz2 + e.nx * e.pz * e.rx * (e.rx2 + e.ry2 + e.rz2) + e.nz * e.px * e.rx * (e.rx2 + e.ry2 +
  e.rz2) + e.ny * e.pz * e.ry * (e.rx2 + e.ry2 + e.rz2) + e.nz * e.py * e.ry * (e.rx2 + e.ry2 + e.rz2) + 2 * e.nz * e.pz * e.rz *
  (e.rx2 + e.ry2 + e.rz2) - e.ca * e.nx * e.py * e.rz2 * (e.rx2 + e.ry2 + e.rz2) + e.ca * e.ny * e.px * e.rz2 * (e.rx2 + e.ry2 +
  e.rz2) - 2 * e.nx * e.py * e.rxryrz - 2 * e.ny * e.px * e.rxryrz - e.a3 * e.nx * e.px * e.rz * e.sa + e.a * e.nx * e.py * e.rz2
  * e.sa - e.a * e.ny * e.px * e.rz2 * e.sa - e.a3 * e.ny * e.py * e.rz * e.sa + e.a * e.nz * e.pz * e.rz3 * e.sa - e.a3 * e.nz *
  e.pz * e.rz * e.sa + 2 * e.ca * e.nx * e.px * e.rx2rz + 2 * e.ca * e.nx * e.pz * e.rxrz2 + 2 * e.ca * e.nz * e.px * e.rxrz2 + 2
  * e.ca * e.ny * e.py * e.ry2rz + 2 * e.ca * e.ny * e.pz * e.ryrz2 + 2 * e.ca * e.nz * e.py * e.ryrz2 - e.ca * e.nx * e.pz * e.rx
  * (e.rx2 + e.ry2 + e.rz2) - e.ca * e.nz * e.px * e.rx * (e.rx2 + e.ry2 + e.rz2) - e.ca * e.ny * e.pz * e.ry * (e.rx2 + e.ry2 +
  e.rz2) - e.ca * e.nz * e.py * e.ry * (e.rx2 + e.ry2 + e.rz2) - 2 * e.ca * e.nz * e.pz * e.rz * (e.rx2 + e.ry2 + e.rz2) + e.a *
  e.nx * e.px * e.rx2rz * e.sa + e.a * e.nx * e.pz * e.rxrz2 * e.sa + e.a * e.nz * e.px * e.rxrz2 * e.sa + e.a * e.ny * e.py *
  e.ry2rz * e.sa + e.a * e.ny * e.pz * e.ryrz2 * e.sa + e.a * e.nz * e.py * e.ryrz2 * e.sa + e.ca * e.nx * e.pz * e.ryrz * (e.rx2
  + e.ry2 + e.rz2) - e.ca * e.ny * e.pz * e.rxrz * (e.rx2 + e.ry2 + e.rz2) - e.ca * e.nz * e.px * e.ryrz * (e.rx2 + e.ry2 + e.rz2)
  + e.ca * e.nz * e.py * e.rxrz * (e.rx2 + e.ry2 + e.rz2) - e.a * e.nx * e.pz * e.ryrz * e.sa + e.a * e.ny * e.pz * e.rxrz * e.sa
  + e.a * e.nz * e.px * e.ryrz * e.sa - e.a * e.nz * e.py * e.rxrz * e.sa + 2 * e.ca * e.nx * e.py * e.rxryrz + 2 * e.ca * e.ny *
  e.px * e.rxryrz + e.a * e.nx * e.py * e.rxryrz * e.sa + e.a * e.ny * e.px * e.rxryrz * e.sa) / e.a4

/-- Entry (5, 3), covariance-inl.hpp:3328-3328. -/
noncomputable def e53 (e : Env) : ℝ :=
  e.nx * e.nz

/-- Entry (5, 4), covariance-inl.hpp:3329-3329. -/
noncomputable def e54 (e : Env) : ℝ :=
  e.ny * e.nz

/-- Entry (5, 5), covariance-inl.hpp:3330-3330. -/
noncomputable def e55 (e : Env) : ℝ :=
  e.nz2

/-- The matrix, covariance-inl.hpp:1909-3332. -/
noncomputable def matrix (e : Env) : Mat6 ℝ :=
  fromBlocks (of ![![e00 e, e01 e, e02 e], ![e10 e, e11 e, e12 e], ![e20 e, e21 e, e22 e]])
    (of ![![e03 e, e04 e, e05 e], ![e13 e, e14 e, e15 e], ![e23 e, e24 e, e25 e]])
    (of ![![e30 e, e31 e, e32 e], ![e40 e, e41 e, e42 e], ![e50 e, e51 e, e52 e]])
    (of ![![e33 e, e34 e, e35 e], ![e43 e, e44 e, e45 e], ![e53 e, e54 e, e55 e]])

end PlaneDx2

end Lidar

end Serpent
