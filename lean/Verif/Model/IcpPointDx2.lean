import Verif.Model.IcpEnv

/-!
# Model of `PointToPointIcpNonlinearModel::compute_half_d2F_dx2`

covariance-inl.hpp:279-1353, one definition for each entry of the matrix.
-/

namespace Serpent

namespace Lidar

namespace PointDx2

open Matrix EigenExt

/-- Entry (0, 0), covariance-inl.hpp:334-433. -/
noncomputable def e00 (e : Env) : ℝ :=
  (e.pz * (e.a3 * e.sa - e.a * e.rx2 * e.sa + e.a2 * e.ca * e.rx2 + 2 * e.rxryrz - 2 * e.ca * e.rxryrz - e.a * e.rxryrz * e.sa) /
  e.a4 - e.px * (e.a2 * e.ry - 2 * e.rx2ry + 2 * e.ca * e.rx2ry - e.a2 * e.ca * e.ry - e.a * e.rxrz * e.sa + e.a2 * e.ca * e.rxrz
  + e.a * e.rx2ry * e.sa) / e.a4 + e.py * e.rx * (e.a3 * e.sa - 2 * e.ca * e.ry2 + 2 * e.ry2 - e.a * e.ry2 * e.sa) / e.a4) * (2 *
  e.pz * (e.a3 * e.sa - e.a * e.rx2 * e.sa + e.a2 * e.ca * e.rx2 + 2 * e.rxryrz - 2 * e.ca * e.rxryrz - e.a * e.rxryrz * e.sa) /
  e.a4 - 2 * e.px * (e.a2 * e.ry - 2 * e.rx2ry + 2 * e.ca * e.rx2ry - e.a2 * e.ca * e.ry - e.a * e.rxrz * e.sa + e.a2 * e.ca *
  e.rxrz + e.a * e.rx2ry * e.sa) / e.a4 + 2 * e.py * e.rx * (e.a3 * e.sa - 2 * e.ca * e.ry2 + 2 * e.ry2 - e.a * e.ry2 * e.sa) /
  e.a4) / 2 + (e.px * (e.a2 * e.rz - 2 * e.rx2rz + 2 * e.ca * e.rx2rz - e.a2 * e.ca * e.rz + e.a * e.rxry * e.sa - e.a2 * e.ca *
  e.rxry + e.a * e.rx2rz * e.sa) / e.a4 + e.py * (e.a3 * e.sa - e.a * e.rx2 * e.sa + e.a2 * e.ca * e.rx2 - 2 * e.rxryrz + 2 * e.ca
  * e.rxryrz + e.a * e.rxryrz * e.sa) / e.a4 - e.pz * e.rx * (e.a3 * e.sa - 2 * e.ca * e.rz2 + 2 * e.rz2 - e.a * e.rz2 * e.sa) /
  e.a4) * (2 * e.px * (e.a2 * e.rz - 2 * e.rx2rz + 2 * e.ca * e.rx2rz - e.a2 * e.ca * e.rz + e.a * e.rxry * e.sa - e.a2 * e.ca *
  e.rxry + e.a * e.rx2rz * e.sa) / e.a4 + 2 * e.py * (e.a3 * e.sa - e.a * e.rx2 * e.sa + e.a2 * e.ca * e.rx2 - 2 * e.rxryrz + 2 *
  e.ca * e.rxryrz + e.a * e.rxryrz * e.sa) / e.a4 - 2 * e.pz * e.rx * (e.a3 * e.sa - 2 * e.ca * e.rz2 + 2 * e.rz2 - e.a * e.rz2 *
  e.sa) / e.a4) / 2 + (e.py * (e.a2 * e.ry - 2 * e.rx2ry + 2 * e.ca * e.rx2ry - e.a2 * e.ca * e.ry + e.a * e.rxrz * e.sa - e.a2 *
  e.ca * e.rxrz + e.a * e.rx2ry * e.sa) / e.a4 + e.pz * (e.a2 * e.rz - 2 * e.rx2rz + 2 * e.ca * e.rx2rz - e.a2 * e.ca * e.rz - e.a
  * e.rxry * e.sa + e.a2 * e.ca * e.rxry + e.a * e.rx2rz * e.sa) / e.a4 - e.px * e.rx * (e.a2 - e.rx2) * (2 * e.ca + e.a * e.sa -
  2) / e.a4) * (2 * e.py * (e.a2 * e.ry - 2 * e.rx2ry + 2 * e.ca * e.rx2ry - e.a2 * e.ca * e.ry + e.a * e.rxrz * e.sa - e.a2 *
  e.ca * e.rxrz + e.a * e.rx2ry * e.sa) / e.a4 + 2 * e.pz * (e.a2 * e.rz - 2 * e.rx2rz + 2 * e.ca * e.rx2rz - e.a2 * e.ca * e.rz -
  e.a * e.rxry * e.sa + e.a2 * e.ca * e.rxry + e.a * e.rx2rz * e.sa) / e.a4 - 2 * e.px * e.rx * (e.a2 - e.rx2) * (2 * e.ca + e.a *
  e.sa - 2) / e.a4) / 2 + (2 * e.py * (8 * e.rx3ry - 6 * e.a2 * e.rxry + e.a3 * e.rz * e.sa - 8 * e.ca * e.rx3ry - e.a4 * e.ca *
  e.rz + 6 * e.a2 * e.ca * e.rxry - 5 * e.a * e.rx3ry * e.sa + 3 * e.a3 * e.rxry * e.sa - 3 * e.a * e.rx2rz * e.sa + e.a2 * e.ca *
  e.rx3ry + 3 * e.a2 * e.ca * e.rx2rz + e.a3 * e.rx2rz * e.sa) / e.a6 + 2 * e.pz * (8 * e.rx3rz - 6 * e.a2 * e.rxrz - e.a3 * e.ry
  * e.sa - 8 * e.ca * e.rx3rz + e.a4 * e.ca * e.ry + 6 * e.a2 * e.ca * e.rxrz + 3 * e.a * e.rx2ry * e.sa - 5 * e.a * e.rx3rz *
  e.sa + 3 * e.a3 * e.rxrz * e.sa - 3 * e.a2 * e.ca * e.rx2ry + e.a2 * e.ca * e.rx3rz - e.a3 * e.rx2ry * e.sa) / e.a6 - 2 * e.px *
  (e.a2 - e.rx2) * (2 * e.a2 * e.ca + e.a3 * e.sa - 8 * e.ca * e.rx2 - 2 * e.a2 + 8 * e.rx2 - 5 * e.a * e.rx2 * e.sa + e.a2 * e.ca
  * e.rx2) / e.a6) * (e.a2 * e.tx - e.a2 * e.qx + e.px * e.rx2 - e.ca * e.px * e.rx2 + e.py * e.rxry + e.pz * e.rxrz + e.a2 * e.ca
  * e.px - e.a * e.py * e.rz * e.sa + e.a * e.pz * e.ry * e.sa - e.ca * e.py * e.rxry - e.ca * e.pz * e.rxrz) / (2 * e.a2) + (2 *
  e.pz * (3 * e.a3 * e.rx * e.sa - 3 * e.a * e.rx3 * e.sa - 2 * e.a2 * e.ryrz + 8 * e.rx2ryrz + 3 * e.a2 * e.ca * e.rx3 + e.a3 *
  e.rx3 * e.sa - 3 * e.a4 * e.ca * e.rx + 2 * e.a2 * e.ca * e.ryrz + e.a3 * e.ryrz * e.sa - 8 * e.ca * e.rx2ryrz + e.a2 * e.ca *
  e.rx2ryrz - 5 * e.a * e.rx2ryrz * e.sa) / e.a6 + 2 * e.py * (8 * e.rx2ry2 - e.a5 * e.sa - 2 * e.a2 * e.ry2 - e.a4 * e.ca * e.rx2
  + 2 * e.a2 * e.ca * e.ry2 + e.a3 * e.rx2 * e.sa + e.a3 * e.ry2 * e.sa - 8 * e.ca * e.rx2ry2 + e.a2 * e.ca * e.rx2ry2 - 5 * e.a *
  e.rx2ry2 * e.sa) / e.a6 + 2 * e.px * (8 * e.rx3ry - 6 * e.a2 * e.rxry - e.a3 * e.rz * e.sa - 8 * e.ca * e.rx3ry + e.a4 * e.ca *
  e.rz + 6 * e.a2 * e.ca * e.rxry - 5 * e.a * e.rx3ry * e.sa + 3 * e.a3 * e.rxry * e.sa + 3 * e.a * e.rx2rz * e.sa + e.a2 * e.ca *
  e.rx3ry - 3 * e.a2 * e.ca * e.rx2rz - e.a3 * e.rx2rz * e.sa) / e.a6) * (e.a2 * e.ty - e.a2 * e.qy + e.py * e.ry2 - e.ca * e.py *
  e.ry2 + e.px * e.rxry + e.pz * e.ryrz + e.a2 * e.ca * e.py + e.a * e.px * e.rz * e.sa - e.a * e.pz * e.rx * e.sa - e.ca * e.px *
  e.rxry - e.ca * e.pz * e.ryrz) / (2 * e.a2) + (2 * e.pz * (8 * e.rx2rz2 - e.a5 * e.sa - 2 * e.a2 * e.rz2 - e.a4 * e.ca * e.rx2 +
  2 * e.a2 * e.ca * e.rz2 + e.a3 * e.rx2 * e.sa + e.a3 * e.rz2 * e.sa - 8 * e.ca * e.rx2rz2 + e.a2 * e.ca * e.rx2rz2 - 5 * e.a *
  e.rx2rz2 * e.sa) / e.a6 - 2 * e.py * (2 * e.a2 * e.ryrz - 3 * e.a * e.rx3 * e.sa + 3 * e.a3 * e.rx * e.sa - 8 * e.rx2ryrz + 3 *
  e.a2 * e.ca * e.rx3 + e.a3 * e.rx3 * e.sa - 3 * e.a4 * e.ca * e.rx - 2 * e.a2 * e.ca * e.ryrz - e.a3 * e.ryrz * e.sa + 8 * e.ca
  * e.rx2ryrz - e.a2 * e.ca * e.rx2ryrz + 5 * e.a * e.rx2ryrz * e.sa) / e.a6 + 2 * e.px * (8 * e.rx3rz - 6 * e.a2 * e.rxrz + e.a3
  * e.ry * e.sa - 8 * e.ca * e.rx3rz - e.a4 * e.ca * e.ry + 6 * e.a2 * e.ca * e.rxrz - 3 * e.a * e.rx2ry * e.sa - 5 * e.a *
  e.rx3rz * e.sa + 3 * e.a3 * e.rxrz * e.sa + 3 * e.a2 * e.ca * e.rx2ry + e.a2 * e.ca * e.rx3rz + e.a3 * e.rx2ry * e.sa) / e.a6) *
  (e.a2 * e.tz - e.a2 * e.qz + e.pz * e.rz2 - e.ca * e.pz * e.rz2 + e.px * e.rxrz + e.py * e.ryrz + e.a2 * e.ca * e.pz - e.a *
  e.px * e.ry * e.sa + e.a * e.py * e.rx * e.sa - e.ca * e.px * e.rxrz - e.ca * e.py * e.ryrz) / (2 * e.a2)

/-- Entry (0, 1), covariance-inl.hpp:434-533. -/
noncomputable def e01 (e : Env) : ℝ :=
  (2 * e.py * (e.a2 * e.ry - 2 * e.rx2ry + 2 * e.ca * e.rx2ry - e.a2 * e.ca * e.ry + e.a * e.rxrz * e.sa - e.a2 * e.ca * e.rxrz +
  e.a * e.rx2ry * e.sa) / e.a4 + 2 * e.pz * (e.a2 * e.rz - 2 * e.rx2rz + 2 * e.ca * e.rx2rz - e.a2 * e.ca * e.rz - e.a * e.rxry *
  e.sa + e.a2 * e.ca * e.rxry + e.a * e.rx2rz * e.sa) / e.a4 - 2 * e.px * e.rx * (e.a2 - e.rx2) * (2 * e.ca + e.a * e.sa - 2) /
  e.a4) * (e.py * (e.a2 * e.rx - 2 * e.rxry2 + 2 * e.ca * e.rxry2 - e.a2 * e.ca * e.rx + e.a * e.ryrz * e.sa - e.a2 * e.ca *
  e.ryrz + e.a * e.rxry2 * e.sa) / e.a4 + e.pz * (e.a3 * e.sa - e.a * e.ry2 * e.sa + e.a2 * e.ca * e.ry2 - 2 * e.rxryrz + 2 * e.ca
  * e.rxryrz + e.a * e.rxryrz * e.sa) / e.a4 - e.px * e.ry * (e.a3 * e.sa - 2 * e.ca * e.rx2 + 2 * e.rx2 - e.a * e.rx2 * e.sa) /
  e.a4) / 2 - (e.px * (e.a2 * e.rx - 2 * e.rxry2 + 2 * e.ca * e.rxry2 - e.a2 * e.ca * e.rx - e.a * e.ryrz * e.sa + e.a2 * e.ca *
  e.ryrz + e.a * e.rxry2 * e.sa) / e.a4 + e.pz * (e.a2 * e.rz - 2 * e.ry2rz + 2 * e.ca * e.ry2rz - e.a2 * e.ca * e.rz + e.a *
  e.rxry * e.sa - e.a2 * e.ca * e.rxry + e.a * e.ry2rz * e.sa) / e.a4 - e.py * e.ry * (e.a2 - e.ry2) * (2 * e.ca + e.a * e.sa - 2)
  / e.a4) * (2 * e.pz * (e.a3 * e.sa - e.a * e.rx2 * e.sa + e.a2 * e.ca * e.rx2 + 2 * e.rxryrz - 2 * e.ca * e.rxryrz - e.a *
  e.rxryrz * e.sa) / e.a4 - 2 * e.px * (e.a2 * e.ry - 2 * e.rx2ry + 2 * e.ca * e.rx2ry - e.a2 * e.ca * e.ry - e.a * e.rxrz * e.sa
  + e.a2 * e.ca * e.rxrz + e.a * e.rx2ry * e.sa) / e.a4 + 2 * e.py * e.rx * (e.a3 * e.sa - 2 * e.ca * e.ry2 + 2 * e.ry2 - e.a *
  e.ry2 * e.sa) / e.a4) / 2 - (2 * e.px * (e.a2 * e.rz - 2 * e.rx2rz + 2 * e.ca * e.rx2rz - e.a2 * e.ca * e.rz + e.a * e.rxry *
  e.sa - e.a2 * e.ca * e.rxry + e.a * e.rx2rz * e.sa) / e.a4 + 2 * e.py * (e.a3 * e.sa - e.a * e.rx2 * e.sa + e.a2 * e.ca * e.rx2
  - 2 * e.rxryrz + 2 * e.ca * e.rxryrz + e.a * e.rxryrz * e.sa) / e.a4 - 2 * e.pz * e.rx * (e.a3 * e.sa - 2 * e.ca * e.rz2 + 2 *
  e.rz2 - e.a * e.rz2 * e.sa) / e.a4) * (e.px * (e.a3 * e.sa - e.a * e.ry2 * e.sa + e.a2 * e.ca * e.ry2 + 2 * e.rxryrz - 2 * e.ca
  * e.rxryrz - e.a * e.rxryrz * e.sa) / e.a4 - e.py * (e.a2 * e.rz - 2 * e.ry2rz + 2 * e.ca * e.ry2rz - e.a2 * e.ca * e.rz - e.a *
  e.rxry * e.sa + e.a2 * e.ca * e.rxry + e.a * e.ry2rz * e.sa) / e.a4 + e.pz * e.ry * (e.a3 * e.sa - 2 * e.ca * e.rz2 + 2 * e.rz2
  - e.a * e.rz2 * e.sa) / e.a4) / 2 - (2 * e.py * (2 * e.a2 * e.rxrz + e.a3 * e.ry * e.sa - 8 * e.rxry2rz - e.a4 * e.ca * e.ry - 2
  * e.a2 * e.ca * e.rxrz - 3 * e.a * e.rx2ry * e.sa - e.a3 * e.rxrz * e.sa + 8 * e.ca * e.rxry2rz + 3 * e.a2 * e.ca * e.rx2ry +
  e.a3 * e.rx2ry * e.sa - e.a2 * e.ca * e.rxry2rz + 5 * e.a * e.rxry2rz * e.sa) / e.a6 - 2 * e.px * (e.a3 * e.rx * e.sa - 2 * e.a2
  * e.ryrz + 8 * e.rx2ryrz - e.a4 * e.ca * e.rx + 2 * e.a2 * e.ca * e.ryrz - 3 * e.a * e.rxry2 * e.sa + e.a3 * e.ryrz * e.sa - 8 *
  e.ca * e.rx2ryrz + 3 * e.a2 * e.ca * e.rxry2 + e.a3 * e.rxry2 * e.sa + e.a2 * e.ca * e.rx2ryrz - 5 * e.a * e.rx2ryrz * e.sa) /
  e.a6 + 2 * e.pz * e.rxry * (e.a4 * e.ca - e.a3 * e.sa + 8 * e.ca * e.rz2 - 8 * e.rz2 + 5 * e.a * e.rz2 * e.sa - e.a2 * e.ca *
  e.rz2) / e.a6) * (e.a2 * e.tz - e.a2 * e.qz + e.pz * e.rz2 - e.ca * e.pz * e.rz2 + e.px * e.rxrz + e.py * e.ryrz + e.a2 * e.ca *
  e.pz - e.a * e.px * e.ry * e.sa + e.a * e.py * e.rx * e.sa - e.ca * e.px * e.rxrz - e.ca * e.py * e.ryrz) / (2 * e.a2) + (2 *
  e.py * (8 * e.rx2ry2 - e.a4 * e.ca + e.a4 - 2 * e.a2 * e.rx2 - 2 * e.a2 * e.ry2 + 2 * e.a2 * e.ca * e.rx2 + 2 * e.a2 * e.ca *
  e.ry2 + e.a3 * e.rx2 * e.sa + e.a3 * e.ry2 * e.sa - 8 * e.ca * e.rx2ry2 + e.a2 * e.ca * e.rx2ry2 - 5 * e.a * e.rx2ry2 * e.sa - 3
  * e.a * e.rxryrz * e.sa + 3 * e.a2 * e.ca * e.rxryrz + e.a3 * e.rxryrz * e.sa) / e.a6 - 2 * e.pz * (2 * e.a2 * e.ryrz + e.a3 *
  e.rx * e.sa - 8 * e.rx2ryrz - e.a4 * e.ca * e.rx - 2 * e.a2 * e.ca * e.ryrz - 3 * e.a * e.rxry2 * e.sa - e.a3 * e.ryrz * e.sa +
  8 * e.ca * e.rx2ryrz + 3 * e.a2 * e.ca * e.rxry2 + e.a3 * e.rxry2 * e.sa - e.a2 * e.ca * e.rx2ryrz + 5 * e.a * e.rx2ryrz * e.sa)
  / e.a6 + 2 * e.px * e.rxry * (4 * e.a2 * e.ca - e.a4 * e.ca + 3 * e.a3 * e.sa - 8 * e.ca * e.rx2 - 4 * e.a2 + 8 * e.rx2 - 5 *
  e.a * e.rx2 * e.sa + e.a2 * e.ca * e.rx2) / e.a6) * (e.a2 * e.tx - e.a2 * e.qx + e.px * e.rx2 - e.ca * e.px * e.rx2 + e.py *
  e.rxry + e.pz * e.rxrz + e.a2 * e.ca * e.px - e.a * e.py * e.rz * e.sa + e.a * e.pz * e.ry * e.sa - e.ca * e.py * e.rxry - e.ca
  * e.pz * e.rxrz) / (2 * e.a2) + (2 * e.px * (8 * e.rx2ry2 - e.a4 * e.ca + e.a4 - 2 * e.a2 * e.rx2 - 2 * e.a2 * e.ry2 + 2 * e.a2
  * e.ca * e.rx2 + 2 * e.a2 * e.ca * e.ry2 + e.a3 * e.rx2 * e.sa + e.a3 * e.ry2 * e.sa - 8 * e.ca * e.rx2ry2 + e.a2 * e.ca *
  e.rx2ry2 - 5 * e.a * e.rx2ry2 * e.sa + 3 * e.a * e.rxryrz * e.sa - 3 * e.a2 * e.ca * e.rxryrz - e.a3 * e.rxryrz * e.sa) / e.a6 +
  2 * e.pz * (e.a3 * e.ry * e.sa - 2 * e.a2 * e.rxrz + 8 * e.rxry2rz - e.a4 * e.ca * e.ry + 2 * e.a2 * e.ca * e.rxrz - 3 * e.a *
  e.rx2ry * e.sa + e.a3 * e.rxrz * e.sa - 8 * e.ca * e.rxry2rz + 3 * e.a2 * e.ca * e.rx2ry + e.a3 * e.rx2ry * e.sa + e.a2 * e.ca *
  e.rxry2rz - 5 * e.a * e.rxry2rz * e.sa) / e.a6 + 2 * e.py * e.rxry * (4 * e.a2 * e.ca - e.a4 * e.ca + 3 * e.a3 * e.sa - 8 * e.ca
  * e.ry2 - 4 * e.a2 + 8 * e.ry2 - 5 * e.a * e.ry2 * e.sa + e.a2 * e.ca * e.ry2) / e.a6) * (e.a2 * e.ty - e.a2 * e.qy + e.py *
  e.ry2 - e.ca * e.py * e.ry2 + e.px * e.rxry + e.pz * e.ryrz + e.a2 * e.ca * e.py + e.a * e.px * e.rz * e.sa - e.a * e.pz * e.rx
  * e.sa - e.ca * e.px * e.rxry - e.ca * e.pz * e.ryrz) / (2 * e.a2)

/-- Entry (0, 2), covariance-inl.hpp:534-631. -/
noncomputable def e02 (e : Env) : ℝ :=
  (e.px * (e.a2 * e.rx - 2 * e.rxrz2 + 2 * e.ca * e.rxrz2 - e.a2 * e.ca * e.rx + e.a * e.ryrz * e.sa - e.a2 * e.ca * e.ryrz + e.a
  * e.rxrz2 * e.sa) / e.a4 + e.py * (e.a2 * e.ry - 2 * e.ryrz2 + 2 * e.ca * e.ryrz2 - e.a2 * e.ca * e.ry - e.a * e.rxrz * e.sa +
  e.a2 * e.ca * e.rxrz + e.a * e.ryrz2 * e.sa) / e.a4 - e.pz * e.rz * (e.a2 - e.rz2) * (2 * e.ca + e.a * e.sa - 2) / e.a4) * (2 *
  e.px * (e.a2 * e.rz - 2 * e.rx2rz + 2 * e.ca * e.rx2rz - e.a2 * e.ca * e.rz + e.a * e.rxry * e.sa - e.a2 * e.ca * e.rxry + e.a *
  e.rx2rz * e.sa) / e.a4 + 2 * e.py * (e.a3 * e.sa - e.a * e.rx2 * e.sa + e.a2 * e.ca * e.rx2 - 2 * e.rxryrz + 2 * e.ca * e.rxryrz
  + e.a * e.rxryrz * e.sa) / e.a4 - 2 * e.pz * e.rx * (e.a3 * e.sa - 2 * e.ca * e.rz2 + 2 * e.rz2 - e.a * e.rz2 * e.sa) / e.a4) /
  2 - (2 * e.py * (e.a2 * e.ry - 2 * e.rx2ry + 2 * e.ca * e.rx2ry - e.a2 * e.ca * e.ry + e.a * e.rxrz * e.sa - e.a2 * e.ca *
  e.rxrz + e.a * e.rx2ry * e.sa) / e.a4 + 2 * e.pz * (e.a2 * e.rz - 2 * e.rx2rz + 2 * e.ca * e.rx2rz - e.a2 * e.ca * e.rz - e.a *
  e.rxry * e.sa + e.a2 * e.ca * e.rxry + e.a * e.rx2rz * e.sa) / e.a4 - 2 * e.px * e.rx * (e.a2 - e.rx2) * (2 * e.ca + e.a * e.sa
  - 2) / e.a4) * (e.py * (e.a3 * e.sa - e.a * e.rz2 * e.sa + e.a2 * e.ca * e.rz2 + 2 * e.rxryrz - 2 * e.ca * e.rxryrz - e.a *
  e.rxryrz * e.sa) / e.a4 - e.pz * (e.a2 * e.rx - 2 * e.rxrz2 + 2 * e.ca * e.rxrz2 - e.a2 * e.ca * e.rx - e.a * e.ryrz * e.sa +
  e.a2 * e.ca * e.ryrz + e.a * e.rxrz2 * e.sa) / e.a4 + e.px * e.rz * (e.a3 * e.sa - 2 * e.ca * e.rx2 + 2 * e.rx2 - e.a * e.rx2 *
  e.sa) / e.a4) / 2 - (2 * e.pz * (e.a3 * e.sa - e.a * e.rx2 * e.sa + e.a2 * e.ca * e.rx2 + 2 * e.rxryrz - 2 * e.ca * e.rxryrz -
  e.a * e.rxryrz * e.sa) / e.a4 - 2 * e.px * (e.a2 * e.ry - 2 * e.rx2ry + 2 * e.ca * e.rx2ry - e.a2 * e.ca * e.ry - e.a * e.rxrz *
  e.sa + e.a2 * e.ca * e.rxrz + e.a * e.rx2ry * e.sa) / e.a4 + 2 * e.py * e.rx * (e.a3 * e.sa - 2 * e.ca * e.ry2 + 2 * e.ry2 - e.a
  * e.ry2 * e.sa) / e.a4) * (e.pz * (e.a2 * e.ry - 2 * e.ryrz2 + 2 * e.ca * e.ryrz2 - e.a2 * e.ca * e.ry + e.a * e.rxrz * e.sa -
  e.a2 * e.ca * e.rxrz + e.a * e.ryrz2 * e.sa) / e.a4 + e.px * (e.a3 * e.sa - e.a * e.rz2 * e.sa + e.a2 * e.ca * e.rz2 - 2 *
  e.rxryrz + 2 * e.ca * e.rxryrz + e.a * e.rxryrz * e.sa) / e.a4 - e.py * e.rz * (e.a3 * e.sa - 2 * e.ca * e.ry2 + 2 * e.ry2 - e.a
  * e.ry2 * e.sa) / e.a4) / 2 - (2 * e.px * (2 * e.a2 * e.ryrz + e.a3 * e.rx * e.sa - 8 * e.rx2ryrz - e.a4 * e.ca * e.rx - 2 *
  e.a2 * e.ca * e.ryrz - 3 * e.a * e.rxrz2 * e.sa - e.a3 * e.ryrz * e.sa + 8 * e.ca * e.rx2ryrz + 3 * e.a2 * e.ca * e.rxrz2 + e.a3
  * e.rxrz2 * e.sa - e.a2 * e.ca * e.rx2ryrz + 5 * e.a * e.rx2ryrz * e.sa) / e.a6 - 2 * e.pz * (e.a3 * e.rz * e.sa - 2 * e.a2 *
  e.rxry + 8 * e.rxryrz2 - e.a4 * e.ca * e.rz + 2 * e.a2 * e.ca * e.rxry + e.a3 * e.rxry * e.sa - 3 * e.a * e.rx2rz * e.sa - 8 *
  e.ca * e.rxryrz2 + 3 * e.a2 * e.ca * e.rx2rz + e.a3 * e.rx2rz * e.sa + e.a2 * e.ca * e.rxryrz2 - 5 * e.a * e.rxryrz2 * e.sa) /
  e.a6 + 2 * e.py * e.rxrz * (e.a4 * e.ca - e.a3 * e.sa + 8 * e.ca * e.ry2 - 8 * e.ry2 + 5 * e.a * e.ry2 * e.sa - e.a2 * e.ca *
  e.ry2) / e.a6) * (e.a2 * e.ty - e.a2 * e.qy + e.py * e.ry2 - e.ca * e.py * e.ry2 + e.px * e.rxry + e.pz * e.ryrz + e.a2 * e.ca *
  e.py + e.a * e.px * e.rz * e.sa - e.a * e.pz * e.rx * e.sa - e.ca * e.px * e.rxry - e.ca * e.pz * e.ryrz) / (2 * e.a2) + (2 *
  e.pz * (8 * e.rx2rz2 - e.a4 * e.ca + e.a4 - 2 * e.a2 * e.rx2 - 2 * e.a2 * e.rz2 + 2 * e.a2 * e.ca * e.rx2 + 2 * e.a2 * e.ca *
  e.rz2 + e.a3 * e.rx2 * e.sa + e.a3 * e.rz2 * e.sa - 8 * e.ca * e.rx2rz2 + e.a2 * e.ca * e.rx2rz2 - 5 * e.a * e.rx2rz2 * e.sa + 3
  * e.a * e.rxryrz * e.sa - 3 * e.a2 * e.ca * e.rxryrz - e.a3 * e.rxryrz * e.sa) / e.a6 + 2 * e.py * (e.a3 * e.rx * e.sa - 2 *
  e.a2 * e.ryrz + 8 * e.rx2ryrz - e.a4 * e.ca * e.rx + 2 * e.a2 * e.ca * e.ryrz - 3 * e.a * e.rxrz2 * e.sa + e.a3 * e.ryrz * e.sa
  - 8 * e.ca * e.rx2ryrz + 3 * e.a2 * e.ca * e.rxrz2 + e.a3 * e.rxrz2 * e.sa + e.a2 * e.ca * e.rx2ryrz - 5 * e.a * e.rx2ryrz *
  e.sa) / e.a6 + 2 * e.px * e.rxrz * (4 * e.a2 * e.ca - e.a4 * e.ca + 3 * e.a3 * e.sa - 8 * e.ca * e.rx2 - 4 * e.a2 + 8 * e.rx2 -
  5 * e.a * e.rx2 * e.sa + e.a2 * e.ca * e.rx2) / e.a6) * (e.a2 * e.tx - e.a2 * e.qx + e.px * e.rx2 - e.ca * e.px * e.rx2 + e.py *
  e.rxry + e.pz * e.rxrz + e.a2 * e.ca * e.px - e.a * e.py * e.rz * e.sa + e.a * e.pz * e.ry * e.sa - e.ca * e.py * e.rxry - e.ca
  * e.pz * e.rxrz) / (2 * e.a2) + (2 * e.px * (8 * e.rx2rz2 - e.a4 * e.ca + e.a4 - 2 * e.a2 * e.rx2 - 2 * e.a2 * e.rz2 + 2 * e.a2
  * e.ca * e.rx2 + 2 * e.a2 * e.ca * e.rz2 + e.a3 * e.rx2 * e.sa + e.a3 * e.rz2 * e.sa - 8 * e.ca * e.rx2rz2 + e.a2 * e.ca *
  e.rx2rz2 - 5 * e.a * e.rx2rz2 * e.sa - 3 * e.a * e.rxryrz * e.sa + 3 * e.a2 * e.ca * e.rxryrz + e.a3 * e.rxryrz * e.sa) / e.a6 -
  2 * e.py * (2 * e.a2 * e.rxry + e.a3 * e.rz * e.sa - 8 * e.rxryrz2 - e.a4 * e.ca * e.rz - 2 * e.a2 * e.ca * e.rxry - e.a3 *
  e.rxry * e.sa - 3 * e.a * e.rx2rz * e.sa + 8 * e.ca * e.rxryrz2 + 3 * e.a2 * e.ca * e.rx2rz + e.a3 * e.rx2rz * e.sa - e.a2 *
  e.ca * e.rxryrz2 + 5 * e.a * e.rxryrz2 * e.sa) / e.a6 + 2 * e.pz * e.rxrz * (4 * e.a2 * e.ca - e.a4 * e.ca + 3 * e.a3 * e.sa - 8
  * e.ca * e.rz2 - 4 * e.a2 + 8 * e.rz2 - 5 * e.a * e.rz2 * e.sa + e.a2 * e.ca * e.rz2) / e.a6) * (e.a2 * e.tz - e.a2 * e.qz +
  e.pz * e.rz2 - e.ca * e.pz * e.rz2 + e.px * e.rxrz + e.py * e.ryrz + e.a2 * e.ca * e.pz - e.a * e.px * e.ry * e.sa + e.a * e.py
  * e.rx * e.sa - e.ca * e.px * e.rxrz - e.ca * e.py * e.ryrz) / (2 * e.a2)

/-- Entry (0, 3), covariance-inl.hpp:632-638. -/
noncomputable def e03 (e : Env) : ℝ :=
  e.py * (e.a2 * e.ry - 2 * e.rx2ry + 2 * e.ca * e.rx2ry - e.a2 * e.ca * e.ry + e.a * e.rxrz * e.sa - e.a2 * e.ca * e.rxrz + e.a *
  e.rx2ry * e.sa) / e.a4 + e.pz * (e.a2 * e.rz - 2 * e.rx2rz + 2 * e.ca * e.rx2rz - e.a2 * e.ca * e.rz - e.a * e.rxry * e.sa +
  e.a2 * e.ca * e.rxry + e.a * e.rx2rz * e.sa) / e.a4 - e.px * e.rx * (e.a2 - e.rx2) * (2 * e.ca + e.a * e.sa - 2) / e.a4

/-- Entry (0, 4), covariance-inl.hpp:639-644. -/
noncomputable def e04 (e : Env) : ℝ :=
  e.px * (e.a2 * e.ry - 2 * e.rx2ry + 2 * e.ca * e.rx2ry - e.a2 * e.ca * e.ry - e.a * e.rxrz * e.sa + e.a2 * e.ca * e.rxrz + e.a *
  e.rx2ry * e.sa) / e.a4 - e.pz * (e.a3 * e.sa - e.a * e.rx2 * e.sa + e.a2 * e.ca * e.rx2 + 2 * e.rxryrz - 2 * e.ca * e.rxryrz -
  e.a * e.rxryrz * e.sa) / e.a4 - e.py * e.rx * (e.a3 * e.sa - 2 * e.ca * e.ry2 + 2 * e.ry2 - e.a * e.ry2 * e.sa) / e.a4

/-- Entry (0, 5), covariance-inl.hpp:645-650. -/
noncomputable def e05 (e : Env) : ℝ :=
  e.px * (e.a2 * e.rz - 2 * e.rx2rz + 2 * e.ca * e.rx2rz - e.a2 * e.ca * e.rz + e.a * e.rxry * e.sa - e.a2 * e.ca * e.rxry + e.a *
  e.rx2rz * e.sa) / e.a4 + e.py * (e.a3 * e.sa - e.a * e.rx2 * e.sa + e.a2 * e.ca * e.rx2 - 2 * e.rxryrz + 2 * e.ca * e.rxryrz +
  e.a * e.rxryrz * e.sa) / e.a4 - e.pz * e.rx * (e.a3 * e.sa - 2 * e.ca * e.rz2 + 2 * e.rz2 - e.a * e.rz2 * e.sa) / e.a4

/-- Entry (1, 0), covariance-inl.hpp:651-749. -/
noncomputable def e10 (e : Env) : ℝ :=
  (e.py * (e.a2 * e.ry - 2 * e.rx2ry + 2 * e.ca * e.rx2ry - e.a2 * e.ca * e.ry + e.a * e.rxrz * e.sa - e.a2 * e.ca * e.rxrz + e.a
  * e.rx2ry * e.sa) / e.a4 + e.pz * (e.a2 * e.rz - 2 * e.rx2rz + 2 * e.ca * e.rx2rz - e.a2 * e.ca * e.rz - e.a * e.rxry * e.sa +
  e.a2 * e.ca * e.rxry + e.a * e.rx2rz * e.sa) / e.a4 - e.px * e.rx * (e.a2 - e.rx2) * (2 * e.ca + e.a * e.sa - 2) / e.a4) * (2 *
  e.py * (e.a2 * e.rx - 2 * e.rxry2 + 2 * e.ca * e.rxry2 - e.a2 * e.ca * e.rx + e.a * e.ryrz * e.sa - e.a2 * e.ca * e.ryrz + e.a *
  e.rxry2 * e.sa) / e.a4 + 2 * e.pz * (e.a3 * e.sa - e.a * e.ry2 * e.sa + e.a2 * e.ca * e.ry2 - 2 * e.rxryrz + 2 * e.ca * e.rxryrz
  + e.a * e.rxryrz * e.sa) / e.a4 - 2 * e.px * e.ry * (e.a3 * e.sa - 2 * e.ca * e.rx2 + 2 * e.rx2 - e.a * e.rx2 * e.sa) / e.a4) /
  2 - (2 * e.px * (e.a2 * e.rx - 2 * e.rxry2 + 2 * e.ca * e.rxry2 - e.a2 * e.ca * e.rx - e.a * e.ryrz * e.sa + e.a2 * e.ca *
  e.ryrz + e.a * e.rxry2 * e.sa) / e.a4 + 2 * e.pz * (e.a2 * e.rz - 2 * e.ry2rz + 2 * e.ca * e.ry2rz - e.a2 * e.ca * e.rz + e.a *
  e.rxry * e.sa - e.a2 * e.ca * e.rxry + e.a * e.ry2rz * e.sa) / e.a4 - 2 * e.py * e.ry * (e.a2 - e.ry2) * (2 * e.ca + e.a * e.sa
  - 2) / e.a4) * (e.pz * (e.a3 * e.sa - e.a * e.rx2 * e.sa + e.a2 * e.ca * e.rx2 + 2 * e.rxryrz - 2 * e.ca * e.rxryrz - e.a *
  e.rxryrz * e.sa) / e.a4 - e.px * (e.a2 * e.ry - 2 * e.rx2ry + 2 * e.ca * e.rx2ry - e.a2 * e.ca * e.ry - e.a * e.rxrz * e.sa +
  e.a2 * e.ca * e.rxrz + e.a * e.rx2ry * e.sa) / e.a4 + e.py * e.rx * (e.a3 * e.sa - 2 * e.ca * e.ry2 + 2 * e.ry2 - e.a * e.ry2 *
  e.sa) / e.a4) / 2 - (e.px * (e.a2 * e.rz - 2 * e.rx2rz + 2 * e.ca * e.rx2rz - e.a2 * e.ca * e.rz + e.a * e.rxry * e.sa - e.a2 *
  e.ca * e.rxry + e.a * e.rx2rz * e.sa) / e.a4 + e.py * (e.a3 * e.sa - e.a * e.rx2 * e.sa + e.a2 * e.ca * e.rx2 - 2 * e.rxryrz + 2
  * e.ca * e.rxryrz + e.a * e.rxryrz * e.sa) / e.a4 - e.pz * e.rx * (e.a3 * e.sa - 2 * e.ca * e.rz2 + 2 * e.rz2 - e.a * e.rz2 *
  e.sa) / e.a4) * (2 * e.px * (e.a3 * e.sa - e.a * e.ry2 * e.sa + e.a2 * e.ca * e.ry2 + 2 * e.rxryrz - 2 * e.ca * e.rxryrz - e.a *
  e.rxryrz * e.sa) / e.a4 - 2 * e.py * (e.a2 * e.rz - 2 * e.ry2rz + 2 * e.ca * e.ry2rz - e.a2 * e.ca * e.rz - e.a * e.rxry * e.sa
  + e.a2 * e.ca * e.rxry + e.a * e.ry2rz * e.sa) / e.a4 + 2 * e.pz * e.ry * (e.a3 * e.sa - 2 * e.ca * e.rz2 + 2 * e.rz2 - e.a *
  e.rz2 * e.sa) / e.a4) / 2 - (2 * e.py * (2 * e.a2 * e.rxrz + e.a3 * e.ry * e.sa - 8 * e.rxry2rz - e.a4 * e.ca * e.ry - 2 * e.a2
  * e.ca * e.rxrz - 3 * e.a * e.rx2ry * e.sa - e.a3 * e.rxrz * e.sa + 8 * e.ca * e.rxry2rz + 3 * e.a2 * e.ca * e.rx2ry + e.a3 *
  e.rx2ry * e.sa - e.a2 * e.ca * e.rxry2rz + 5 * e.a * e.rxry2rz * e.sa) / e.a6 - 2 * e.px * (e.a3 * e.rx * e.sa - 2 * e.a2 *
  e.ryrz + 8 * e.rx2ryrz - e.a4 * e.ca * e.rx + 2 * e.a2 * e.ca * e.ryrz - 3 * e.a * e.rxry2 * e.sa + e.a3 * e.ryrz * e.sa - 8 *
  e.ca * e.rx2ryrz + 3 * e.a2 * e.ca * e.rxry2 + e.a3 * e.rxry2 * e.sa + e.a2 * e.ca * e.rx2ryrz - 5 * e.a * e.rx2ryrz * e.sa) /
  e.a6 + 2 * e.pz * e.rxry * (e.a4 * e.ca - e.a3 * e.sa + 8 * e.ca * e.rz2 - 8 * e.rz2 + 5 * e.a * e.rz2 * e.sa - e.a2 * e.ca *
  e.rz2) / e.a6) * (e.a2 * e.tz - e.a2 * e.qz + e.pz * e.rz2 - e.ca * e.pz * e.rz2 + e.px * e.rxrz + e.py * e.ryrz + e.a2 * e.ca *
  e.pz - e.a * e.px * e.ry * e.sa + e.a * e.py * e.rx * e.sa - e.ca * e.px * e.rxrz - e.ca * e.py * e.ryrz) / (2 * e.a2) + (2 *
  e.py * (8 * e.rx2ry2 - e.a4 * e.ca + e.a4 - 2 * e.a2 * e.rx2 - 2 * e.a2 * e.ry2 + 2 * e.a2 * e.ca * e.rx2 + 2 * e.a2 * e.ca *
  e.ry2 + e.a3 * e.rx2 * e.sa + e.a3 * e.ry2 * e.sa - 8 * e.ca * e.rx2ry2 + e.a2 * e.ca * e.rx2ry2 - 5 * e.a * e.rx2ry2 * e.sa - 3
  * e.a * e.rxryrz * e.sa + 3 * e.a2 * e.ca * e.rxryrz + e.a3 * e.rxryrz * e.sa) / e.a6 - 2 * e.pz * (2 * e.a2 * e.ryrz + e.a3 *
  e.rx * e.sa - 8 * e.rx2ryrz - e.a4 * e.ca * e.rx - 2 * e.a2 * e.ca * e.ryrz - 3 * e.a * e.rxry2 * e.sa - e.a3 * e.ryrz * e.sa +
  8 * e.ca * e.rx2ryrz + 3 * e.a2 * e.ca * e.rxry2 + e.a3 * e.rxry2 * e.sa - e.a2 * e.ca * e.rx2ryrz + 5 * e.a * e.rx2ryrz * e.sa)
  / e.a6 + 2 * e.px * e.rxry * (4 * e.a2 * e.ca - e.a4 * e.ca + 3 * e.a3 * e.sa - 8 * e.ca * e.rx2 - 4 * e.a2 + 8 * e.rx2 - 5 *
  e.a * e.rx2 * e.sa + e.a2 * e.ca * e.rx2) / e.a6) * (e.a2 * e.tx - e.a2 * e.qx + e.px * e.rx2 - e.ca * e.px * e.rx2 + e.py *
  e.rxry + e.pz * e.rxrz + e.a2 * e.ca * e.px - e.a * e.py * e.rz * e.sa + e.a * e.pz * e.ry * e.sa - e.ca * e.py * e.rxry - e.ca
  * e.pz * e.rxrz) / (2 * e.a2) + (2 * e.px * (8 * e.rx2ry2 - e.a4 * e.ca + e.a4 - 2 * e.a2 * e.rx2 - 2 * e.a2 * e.ry2 + 2 * e.a2
  * e.ca * e.rx2 + 2 * e.a2 * e.ca * e.ry2 + e.a3 * e.rx2 * e.sa + e.a3 * e.ry2 * e.sa - 8 * e.ca * e.rx2ry2 + e.a2 * e.ca *
  e.rx2ry2 - 5 * e.a * e.rx2ry2 * e.sa + 3 * e.a * e.rxryrz * e.sa - 3 * e.a2 * e.ca * e.rxryrz - e.a3 * e.rxryrz * e.sa) / e.a6 +
  2 * e.pz * (e.a3 * e.ry * e.sa - 2 * e.a2 * e.rxrz + 8 * e.rxry2rz - e.a4 * e.ca * e.ry + 2 * e.a2 * e.ca * e.rxrz - 3 * e.a *
  e.rx2ry * e.sa + e.a3 * e.rxrz * e.sa - 8 * e.ca * e.rxry2rz + 3 * e.a2 * e.ca * e.rx2ry + e.a3 * e.rx2ry * e.sa + e.a2 * e.ca *
  e.rxry2rz - 5 * e.a * e.rxry2rz * e.sa) / e.a6 + 2 * e.py * e.rxry * (4 * e.a2 * e.ca - e.a4 * e.ca + 3 * e.a3 * e.sa - 8 * e.ca
  * e.ry2 - 4 * e.a2 + 8 * e.ry2 - 5 * e.a * e.ry2 * e.sa + e.a2 * e.ca * e.ry2) / e.a6) * (e.a2 * e.ty - e.a2 * e.qy + e.py *
  e.ry2 - e.ca * e.py * e.ry2 + e.px * e.rxry + e.pz * e.ryrz + e.a2 * e.ca * e.py + e.a * e.px * e.rz * e.sa - e.a * e.pz * e.rx
  * e.sa - e.ca * e.px * e.rxry - e.ca * e.pz * e.ryrz) / (2 * e.a2)

/-- Entry (1, 1), covariance-inl.hpp:750-849. -/
noncomputable def e11 (e : Env) : ℝ :=
  (e.py * (e.a2 * e.rx - 2 * e.rxry2 + 2 * e.ca * e.rxry2 - e.a2 * e.ca * e.rx + e.a * e.ryrz * e.sa - e.a2 * e.ca * e.ryrz + e.a
  * e.rxry2 * e.sa) / e.a4 + e.pz * (e.a3 * e.sa - e.a * e.ry2 * e.sa + e.a2 * e.ca * e.ry2 - 2 * e.rxryrz + 2 * e.ca * e.rxryrz +
  e.a * e.rxryrz * e.sa) / e.a4 - e.px * e.ry * (e.a3 * e.sa - 2 * e.ca * e.rx2 + 2 * e.rx2 - e.a * e.rx2 * e.sa) / e.a4) * (2 *
  e.py * (e.a2 * e.rx - 2 * e.rxry2 + 2 * e.ca * e.rxry2 - e.a2 * e.ca * e.rx + e.a * e.ryrz * e.sa - e.a2 * e.ca * e.ryrz + e.a *
  e.rxry2 * e.sa) / e.a4 + 2 * e.pz * (e.a3 * e.sa - e.a * e.ry2 * e.sa + e.a2 * e.ca * e.ry2 - 2 * e.rxryrz + 2 * e.ca * e.rxryrz
  + e.a * e.rxryrz * e.sa) / e.a4 - 2 * e.px * e.ry * (e.a3 * e.sa - 2 * e.ca * e.rx2 + 2 * e.rx2 - e.a * e.rx2 * e.sa) / e.a4) /
  2 + (e.px * (e.a3 * e.sa - e.a * e.ry2 * e.sa + e.a2 * e.ca * e.ry2 + 2 * e.rxryrz - 2 * e.ca * e.rxryrz - e.a * e.rxryrz *
  e.sa) / e.a4 - e.py * (e.a2 * e.rz - 2 * e.ry2rz + 2 * e.ca * e.ry2rz - e.a2 * e.ca * e.rz - e.a * e.rxry * e.sa + e.a2 * e.ca *
  e.rxry + e.a * e.ry2rz * e.sa) / e.a4 + e.pz * e.ry * (e.a3 * e.sa - 2 * e.ca * e.rz2 + 2 * e.rz2 - e.a * e.rz2 * e.sa) / e.a4)
  * (2 * e.px * (e.a3 * e.sa - e.a * e.ry2 * e.sa + e.a2 * e.ca * e.ry2 + 2 * e.rxryrz - 2 * e.ca * e.rxryrz - e.a * e.rxryrz *
  e.sa) / e.a4 - 2 * e.py * (e.a2 * e.rz - 2 * e.ry2rz + 2 * e.ca * e.ry2rz - e.a2 * e.ca * e.rz - e.a * e.rxry * e.sa + e.a2 *
  e.ca * e.rxry + e.a * e.ry2rz * e.sa) / e.a4 + 2 * e.pz * e.ry * (e.a3 * e.sa - 2 * e.ca * e.rz2 + 2 * e.rz2 - e.a * e.rz2 *
  e.sa) / e.a4) / 2 + (e.px * (e.a2 * e.rx - 2 * e.rxry2 + 2 * e.ca * e.rxry2 - e.a2 * e.ca * e.rx - e.a * e.ryrz * e.sa + e.a2 *
  e.ca * e.ryrz + e.a * e.rxry2 * e.sa) / e.a4 + e.pz * (e.a2 * e.rz - 2 * e.ry2rz + 2 * e.ca * e.ry2rz - e.a2 * e.ca * e.rz + e.a
  * e.rxry * e.sa - e.a2 * e.ca * e.rxry + e.a * e.ry2rz * e.sa) / e.a4 - e.py * e.ry * (e.a2 - e.ry2) * (2 * e.ca + e.a * e.sa -
  2) / e.a4) * (2 * e.px * (e.a2 * e.rx - 2 * e.rxry2 + 2 * e.ca * e.rxry2 - e.a2 * e.ca * e.rx - e.a * e.ryrz * e.sa + e.a2 *
  e.ca * e.ryrz + e.a * e.rxry2 * e.sa) / e.a4 + 2 * e.pz * (e.a2 * e.rz - 2 * e.ry2rz + 2 * e.ca * e.ry2rz - e.a2 * e.ca * e.rz +
  e.a * e.rxry * e.sa - e.a2 * e.ca * e.rxry + e.a * e.ry2rz * e.sa) / e.a4 - 2 * e.py * e.ry * (e.a2 - e.ry2) * (2 * e.ca + e.a *
  e.sa - 2) / e.a4) / 2 + (2 * e.px * (8 * e.rxry3 - 6 * e.a2 * e.rxry - e.a3 * e.rz * e.sa - 8 * e.ca * e.rxry3 + e.a4 * e.ca *
  e.rz + 6 * e.a2 * e.ca * e.rxry - 5 * e.a * e.rxry3 * e.sa + 3 * e.a3 * e.rxry * e.sa + 3 * e.a * e.ry2rz * e.sa + e.a2 * e.ca *
  e.rxry3 - 3 * e.a2 * e.ca * e.ry2rz - e.a3 * e.ry2rz * e.sa) / e.a6 + 2 * e.pz * (8 * e.ry3rz - 6 * e.a2 * e.ryrz + e.a3 * e.rx
  * e.sa - 8 * e.ca * e.ry3rz - e.a4 * e.ca * e.rx + 6 * e.a2 * e.ca * e.ryrz - 3 * e.a * e.rxry2 * e.sa - 5 * e.a * e.ry3rz *
  e.sa + 3 * e.a3 * e.ryrz * e.sa + 3 * e.a2 * e.ca * e.rxry2 + e.a2 * e.ca * e.ry3rz + e.a3 * e.rxry2 * e.sa) / e.a6 - 2 * e.py *
  (e.a2 - e.ry2) * (2 * e.a2 * e.ca + e.a3 * e.sa - 8 * e.ca * e.ry2 - 2 * e.a2 + 8 * e.ry2 - 5 * e.a * e.ry2 * e.sa + e.a2 * e.ca
  * e.ry2) / e.a6) * (e.a2 * e.ty - e.a2 * e.qy + e.py * e.ry2 - e.ca * e.py * e.ry2 + e.px * e.rxry + e.pz * e.ryrz + e.a2 * e.ca
  * e.py + e.a * e.px * e.rz * e.sa - e.a * e.pz * e.rx * e.sa - e.ca * e.px * e.rxry - e.ca * e.pz * e.ryrz) / (2 * e.a2) + (2 *
  e.px * (8 * e.rx2ry2 - e.a5 * e.sa - 2 * e.a2 * e.rx2 + 2 * e.a2 * e.ca * e.rx2 - e.a4 * e.ca * e.ry2 + e.a3 * e.rx2 * e.sa +
  e.a3 * e.ry2 * e.sa - 8 * e.ca * e.rx2ry2 + e.a2 * e.ca * e.rx2ry2 - 5 * e.a * e.rx2ry2 * e.sa) / e.a6 - 2 * e.pz * (2 * e.a2 *
  e.rxrz - 3 * e.a * e.ry3 * e.sa + 3 * e.a3 * e.ry * e.sa - 8 * e.rxry2rz + 3 * e.a2 * e.ca * e.ry3 + e.a3 * e.ry3 * e.sa - 3 *
  e.a4 * e.ca * e.ry - 2 * e.a2 * e.ca * e.rxrz - e.a3 * e.rxrz * e.sa + 8 * e.ca * e.rxry2rz - e.a2 * e.ca * e.rxry2rz + 5 * e.a
  * e.rxry2rz * e.sa) / e.a6 + 2 * e.py * (8 * e.rxry3 - 6 * e.a2 * e.rxry + e.a3 * e.rz * e.sa - 8 * e.ca * e.rxry3 - e.a4 * e.ca
  * e.rz + 6 * e.a2 * e.ca * e.rxry - 5 * e.a * e.rxry3 * e.sa + 3 * e.a3 * e.rxry * e.sa - 3 * e.a * e.ry2rz * e.sa + e.a2 * e.ca
  * e.rxry3 + 3 * e.a2 * e.ca * e.ry2rz + e.a3 * e.ry2rz * e.sa) / e.a6) * (e.a2 * e.tx - e.a2 * e.qx + e.px * e.rx2 - e.ca * e.px
  * e.rx2 + e.py * e.rxry + e.pz * e.rxrz + e.a2 * e.ca * e.px - e.a * e.py * e.rz * e.sa + e.a * e.pz * e.ry * e.sa - e.ca * e.py
  * e.rxry - e.ca * e.pz * e.rxrz) / (2 * e.a2) + (2 * e.px * (3 * e.a3 * e.ry * e.sa - 3 * e.a * e.ry3 * e.sa - 2 * e.a2 * e.rxrz
  + 8 * e.rxry2rz + 3 * e.a2 * e.ca * e.ry3 + e.a3 * e.ry3 * e.sa - 3 * e.a4 * e.ca * e.ry + 2 * e.a2 * e.ca * e.rxrz + e.a3 *
  e.rxrz * e.sa - 8 * e.ca * e.rxry2rz + e.a2 * e.ca * e.rxry2rz - 5 * e.a * e.rxry2rz * e.sa) / e.a6 + 2 * e.pz * (8 * e.ry2rz2 -
  e.a5 * e.sa - 2 * e.a2 * e.rz2 - e.a4 * e.ca * e.ry2 + 2 * e.a2 * e.ca * e.rz2 + e.a3 * e.ry2 * e.sa + e.a3 * e.rz2 * e.sa - 8 *
  e.ca * e.ry2rz2 + e.a2 * e.ca * e.ry2rz2 - 5 * e.a * e.ry2rz2 * e.sa) / e.a6 + 2 * e.py * (8 * e.ry3rz - 6 * e.a2 * e.ryrz -
  e.a3 * e.rx * e.sa - 8 * e.ca * e.ry3rz + e.a4 * e.ca * e.rx + 6 * e.a2 * e.ca * e.ryrz + 3 * e.a * e.rxry2 * e.sa - 5 * e.a *
  e.ry3rz * e.sa + 3 * e.a3 * e.ryrz * e.sa - 3 * e.a2 * e.ca * e.rxry2 + e.a2 * e.ca * e.ry3rz - e.a3 * e.rxry2 * e.sa) / e.a6) *
  (e.a2 * e.tz - e.a2 * e.qz + e.pz * e.rz2 - e.ca * e.pz * e.rz2 + e.px * e.rxrz + e.py * e.ryrz + e.a2 * e.ca * e.pz - e.a *
  e.px * e.ry * e.sa + e.a * e.py * e.rx * e.sa - e.ca * e.px * e.rxrz - e.ca * e.py * e.ryrz) / (2 * e.a2)

/-- Entry (1, 2), covariance-inl.hpp:850-949. -/
noncomputable def e12 (e : Env) : ℝ :=
  (2 * e.px * (e.a2 * e.rx - 2 * e.rxry2 + 2 * e.ca * e.rxry2 - e.a2 * e.ca * e.rx - e.a * e.ryrz * e.sa + e.a2 * e.ca * e.ryrz +
  e.a * e.rxry2 * e.sa) / e.a4 + 2 * e.pz * (e.a2 * e.rz - 2 * e.ry2rz + 2 * e.ca * e.ry2rz - e.a2 * e.ca * e.rz + e.a * e.rxry *
  e.sa - e.a2 * e.ca * e.rxry + e.a * e.ry2rz * e.sa) / e.a4 - 2 * e.py * e.ry * (e.a2 - e.ry2) * (2 * e.ca + e.a * e.sa - 2) /
  e.a4) * (e.pz * (e.a2 * e.ry - 2 * e.ryrz2 + 2 * e.ca * e.ryrz2 - e.a2 * e.ca * e.ry + e.a * e.rxrz * e.sa - e.a2 * e.ca *
  e.rxrz + e.a * e.ryrz2 * e.sa) / e.a4 + e.px * (e.a3 * e.sa - e.a * e.rz2 * e.sa + e.a2 * e.ca * e.rz2 - 2 * e.rxryrz + 2 * e.ca
  * e.rxryrz + e.a * e.rxryrz * e.sa) / e.a4 - e.py * e.rz * (e.a3 * e.sa - 2 * e.ca * e.ry2 + 2 * e.ry2 - e.a * e.ry2 * e.sa) /
  e.a4) / 2 - (e.px * (e.a2 * e.rx - 2 * e.rxrz2 + 2 * e.ca * e.rxrz2 - e.a2 * e.ca * e.rx + e.a * e.ryrz * e.sa - e.a2 * e.ca *
  e.ryrz + e.a * e.rxrz2 * e.sa) / e.a4 + e.py * (e.a2 * e.ry - 2 * e.ryrz2 + 2 * e.ca * e.ryrz2 - e.a2 * e.ca * e.ry - e.a *
  e.rxrz * e.sa + e.a2 * e.ca * e.rxrz + e.a * e.ryrz2 * e.sa) / e.a4 - e.pz * e.rz * (e.a2 - e.rz2) * (2 * e.ca + e.a * e.sa - 2)
  / e.a4) * (2 * e.px * (e.a3 * e.sa - e.a * e.ry2 * e.sa + e.a2 * e.ca * e.ry2 + 2 * e.rxryrz - 2 * e.ca * e.rxryrz - e.a *
  e.rxryrz * e.sa) / e.a4 - 2 * e.py * (e.a2 * e.rz - 2 * e.ry2rz + 2 * e.ca * e.ry2rz - e.a2 * e.ca * e.rz - e.a * e.rxry * e.sa
  + e.a2 * e.ca * e.rxry + e.a * e.ry2rz * e.sa) / e.a4 + 2 * e.pz * e.ry * (e.a3 * e.sa - 2 * e.ca * e.rz2 + 2 * e.rz2 - e.a *
  e.rz2 * e.sa) / e.a4) / 2 - (2 * e.py * (e.a2 * e.rx - 2 * e.rxry2 + 2 * e.ca * e.rxry2 - e.a2 * e.ca * e.rx + e.a * e.ryrz *
  e.sa - e.a2 * e.ca * e.ryrz + e.a * e.rxry2 * e.sa) / e.a4 + 2 * e.pz * (e.a3 * e.sa - e.a * e.ry2 * e.sa + e.a2 * e.ca * e.ry2
  - 2 * e.rxryrz + 2 * e.ca * e.rxryrz + e.a * e.rxryrz * e.sa) / e.a4 - 2 * e.px * e.ry * (e.a3 * e.sa - 2 * e.ca * e.rx2 + 2 *
  e.rx2 - e.a * e.rx2 * e.sa) / e.a4) * (e.py * (e.a3 * e.sa - e.a * e.rz2 * e.sa + e.a2 * e.ca * e.rz2 + 2 * e.rxryrz - 2 * e.ca
  * e.rxryrz - e.a * e.rxryrz * e.sa) / e.a4 - e.pz * (e.a2 * e.rx - 2 * e.rxrz2 + 2 * e.ca * e.rxrz2 - e.a2 * e.ca * e.rx - e.a *
  e.ryrz * e.sa + e.a2 * e.ca * e.ryrz + e.a * e.rxrz2 * e.sa) / e.a4 + e.px * e.rz * (e.a3 * e.sa - 2 * e.ca * e.rx2 + 2 * e.rx2
  - e.a * e.rx2 * e.sa) / e.a4) / 2 - (2 * e.pz * (2 * e.a2 * e.rxry + e.a3 * e.rz * e.sa - 8 * e.rxryrz2 - e.a4 * e.ca * e.rz - 2
  * e.a2 * e.ca * e.rxry - e.a3 * e.rxry * e.sa - 3 * e.a * e.ry2rz * e.sa + 8 * e.ca * e.rxryrz2 + 3 * e.a2 * e.ca * e.ry2rz +
  e.a3 * e.ry2rz * e.sa - e.a2 * e.ca * e.rxryrz2 + 5 * e.a * e.rxryrz2 * e.sa) / e.a6 - 2 * e.py * (e.a3 * e.ry * e.sa - 2 * e.a2
  * e.rxrz + 8 * e.rxry2rz - e.a4 * e.ca * e.ry + 2 * e.a2 * e.ca * e.rxrz + e.a3 * e.rxrz * e.sa - 3 * e.a * e.ryrz2 * e.sa - 8 *
  e.ca * e.rxry2rz + 3 * e.a2 * e.ca * e.ryrz2 + e.a3 * e.ryrz2 * e.sa + e.a2 * e.ca * e.rxry2rz - 5 * e.a * e.rxry2rz * e.sa) /
  e.a6 + 2 * e.px * e.ryrz * (e.a4 * e.ca - e.a3 * e.sa + 8 * e.ca * e.rx2 - 8 * e.rx2 + 5 * e.a * e.rx2 * e.sa - e.a2 * e.ca *
  e.rx2) / e.a6) * (e.a2 * e.tx - e.a2 * e.qx + e.px * e.rx2 - e.ca * e.px * e.rx2 + e.py * e.rxry + e.pz * e.rxrz + e.a2 * e.ca *
  e.px - e.a * e.py * e.rz * e.sa + e.a * e.pz * e.ry * e.sa - e.ca * e.py * e.rxry - e.ca * e.pz * e.rxrz) / (2 * e.a2) + (2 *
  e.pz * (8 * e.ry2rz2 - e.a4 * e.ca + e.a4 - 2 * e.a2 * e.ry2 - 2 * e.a2 * e.rz2 + 2 * e.a2 * e.ca * e.ry2 + 2 * e.a2 * e.ca *
  e.rz2 + e.a3 * e.ry2 * e.sa + e.a3 * e.rz2 * e.sa - 8 * e.ca * e.ry2rz2 + e.a2 * e.ca * e.ry2rz2 - 5 * e.a * e.ry2rz2 * e.sa - 3
  * e.a * e.rxryrz * e.sa + 3 * e.a2 * e.ca * e.rxryrz + e.a3 * e.rxryrz * e.sa) / e.a6 - 2 * e.px * (2 * e.a2 * e.rxrz + e.a3 *
  e.ry * e.sa - 8 * e.rxry2rz - e.a4 * e.ca * e.ry - 2 * e.a2 * e.ca * e.rxrz - e.a3 * e.rxrz * e.sa - 3 * e.a * e.ryrz2 * e.sa +
  8 * e.ca * e.rxry2rz + 3 * e.a2 * e.ca * e.ryrz2 + e.a3 * e.ryrz2 * e.sa - e.a2 * e.ca * e.rxry2rz + 5 * e.a * e.rxry2rz * e.sa)
  / e.a6 + 2 * e.py * e.ryrz * (4 * e.a2 * e.ca - e.a4 * e.ca + 3 * e.a3 * e.sa - 8 * e.ca * e.ry2 - 4 * e.a2 + 8 * e.ry2 - 5 *
  e.a * e.ry2 * e.sa + e.a2 * e.ca * e.ry2) / e.a6) * (e.a2 * e.ty - e.a2 * e.qy + e.py * e.ry2 - e.ca * e.py * e.ry2 + e.px *
  e.rxry + e.pz * e.ryrz + e.a2 * e.ca * e.py + e.a * e.px * e.rz * e.sa - e.a * e.pz * e.rx * e.sa - e.ca * e.px * e.rxry - e.ca
  * e.pz * e.ryrz) / (2 * e.a2) + (2 * e.py * (8 * e.ry2rz2 - e.a4 * e.ca + e.a4 - 2 * e.a2 * e.ry2 - 2 * e.a2 * e.rz2 + 2 * e.a2
  * e.ca * e.ry2 + 2 * e.a2 * e.ca * e.rz2 + e.a3 * e.ry2 * e.sa + e.a3 * e.rz2 * e.sa - 8 * e.ca * e.ry2rz2 + e.a2 * e.ca *
  e.ry2rz2 - 5 * e.a * e.ry2rz2 * e.sa + 3 * e.a * e.rxryrz * e.sa - 3 * e.a2 * e.ca * e.rxryrz - e.a3 * e.rxryrz * e.sa) / e.a6 +
  2 * e.px * (e.a3 * e.rz * e.sa - 2 * e.a2 * e.rxry + 8 * e.rxryrz2 - e.a4 * e.ca * e.rz + 2 * e.a2 * e.ca * e.rxry + e.a3 *
  e.rxry * e.sa - 3 * e.a * e.ry2rz * e.sa - 8 * e.ca * e.rxryrz2 + 3 * e.a2 * e.ca * e.ry2rz + e.a3 * e.ry2rz * e.sa + e.a2 *
  e.ca * e.rxryrz2 - 5 * e.a * e.rxryrz2 * e.sa) / e.a6 + 2 * e.pz * e.ryrz * (4 * e.a2 * e.ca - e.a4 * e.ca + 3 * e.a3 * e.sa - 8
  * e.ca * e.rz2 - 4 * e.a2 + 8 * e.rz2 - 5 * e.a * e.rz2 * e.sa + e.a2 * e.ca * e.rz2) / e.a6) * (e.a2 * e.tz - e.a2 * e.qz +
  e.pz * e.rz2 - e.ca * e.pz * e.rz2 + e.px * e.rxrz + e.py * e.ryrz + e.a2 * e.ca * e.pz - e.a * e.px * e.ry * e.sa + e.a * e.py
  * e.rx * e.sa - e.ca * e.px * e.rxrz - e.ca * e.py * e.ryrz) / (2 * e.a2)

/-- Entry (1, 3), covariance-inl.hpp:950-955. -/
noncomputable def e13 (e : Env) : ℝ :=
  e.py * (e.a2 * e.rx - 2 * e.rxry2 + 2 * e.ca * e.rxry2 - e.a2 * e.ca * e.rx + e.a * e.ryrz * e.sa - e.a2 * e.ca * e.ryrz + e.a *
  e.rxry2 * e.sa) / e.a4 + e.pz * (e.a3 * e.sa - e.a * e.ry2 * e.sa + e.a2 * e.ca * e.ry2 - 2 * e.rxryrz + 2 * e.ca * e.rxryrz +
  e.a * e.rxryrz * e.sa) / e.a4 - e.px * e.ry * (e.a3 * e.sa - 2 * e.ca * e.rx2 + 2 * e.rx2 - e.a * e.rx2 * e.sa) / e.a4

/-- Entry (1, 4), covariance-inl.hpp:956-962. -/
noncomputable def e14 (e : Env) : ℝ :=
  e.px * (e.a2 * e.rx - 2 * e.rxry2 + 2 * e.ca * e.rxry2 - e.a2 * e.ca * e.rx - e.a * e.ryrz * e.sa + e.a2 * e.ca * e.ryrz + e.a *
  e.rxry2 * e.sa) / e.a4 + e.pz * (e.a2 * e.rz - 2 * e.ry2rz + 2 * e.ca * e.ry2rz - e.a2 * e.ca * e.rz + e.a * e.rxry * e.sa -
  e.a2 * e.ca * e.rxry + e.a * e.ry2rz * e.sa) / e.a4 - e.py * e.ry * (e.a2 - e.ry2) * (2 * e.ca + e.a * e.sa - 2) / e.a4

/-- Entry (1, 5), covariance-inl.hpp:963-968. -/
noncomputable def e15 (e : Env) : ℝ :=
  e.py * (e.a2 * e.rz - 2 * e.ry2rz + 2 * e.ca * e.ry2rz - e.a2 * e.ca * e.rz - e.a * e.rxry * e.sa + e.a2 * e.ca * e.rxry + e.a *
  e.ry2rz * e.sa) / e.a4 - e.px * (e.a3 * e.sa - e.a * e.ry2 * e.sa + e.a2 * e.ca * e.ry2 + 2 * e.rxryrz - 2 * e.ca * e.rxryrz -
  e.a * e.rxryrz * e.sa) / e.a4 - e.pz * e.ry * (e.a3 * e.sa - 2 * e.ca * e.rz2 + 2 * e.rz2 - e.a * e.rz2 * e.sa) / e.a4

/-- Entry (2, 0), covariance-inl.hpp:969-1067. -/
noncomputable def e20 (e : Env) : ℝ :=
  (2 * e.px * (e.a2 * e.rx - 2 * e.rxrz2 + 2 * e.ca * e.rxrz2 - e.a2 * e.ca * e.rx + e.a * e.ryrz * e.sa - e.a2 * e.ca * e.ryrz +
  e.a * e.rxrz2 * e.sa) / e.a4 + 2 * e.py * (e.a2 * e.ry - 2 * e.ryrz2 + 2 * e.ca * e.ryrz2 - e.a2 * e.ca * e.ry - e.a * e.rxrz *
  e.sa + e.a2 * e.ca * e.rxrz + e.a * e.ryrz2 * e.sa) / e.a4 - 2 * e.pz * e.rz * (e.a2 - e.rz2) * (2 * e.ca + e.a * e.sa - 2) /
  e.a4) * (e.px * (e.a2 * e.rz - 2 * e.rx2rz + 2 * e.ca * e.rx2rz - e.a2 * e.ca * e.rz + e.a * e.rxry * e.sa - e.a2 * e.ca *
  e.rxry + e.a * e.rx2rz * e.sa) / e.a4 + e.py * (e.a3 * e.sa - e.a * e.rx2 * e.sa + e.a2 * e.ca * e.rx2 - 2 * e.rxryrz + 2 * e.ca
  * e.rxryrz + e.a * e.rxryrz * e.sa) / e.a4 - e.pz * e.rx * (e.a3 * e.sa - 2 * e.ca * e.rz2 + 2 * e.rz2 - e.a * e.rz2 * e.sa) /
  e.a4) / 2 - (e.py * (e.a2 * e.ry - 2 * e.rx2ry + 2 * e.ca * e.rx2ry - e.a2 * e.ca * e.ry + e.a * e.rxrz * e.sa - e.a2 * e.ca *
  e.rxrz + e.a * e.rx2ry * e.sa) / e.a4 + e.pz * (e.a2 * e.rz - 2 * e.rx2rz + 2 * e.ca * e.rx2rz - e.a2 * e.ca * e.rz - e.a *
  e.rxry * e.sa + e.a2 * e.ca * e.rxry + e.a * e.rx2rz * e.sa) / e.a4 - e.px * e.rx * (e.a2 - e.rx2) * (2 * e.ca + e.a * e.sa - 2)
  / e.a4) * (2 * e.py * (e.a3 * e.sa - e.a * e.rz2 * e.sa + e.a2 * e.ca * e.rz2 + 2 * e.rxryrz - 2 * e.ca * e.rxryrz - e.a *
  e.rxryrz * e.sa) / e.a4 - 2 * e.pz * (e.a2 * e.rx - 2 * e.rxrz2 + 2 * e.ca * e.rxrz2 - e.a2 * e.ca * e.rx - e.a * e.ryrz * e.sa
  + e.a2 * e.ca * e.ryrz + e.a * e.rxrz2 * e.sa) / e.a4 + 2 * e.px * e.rz * (e.a3 * e.sa - 2 * e.ca * e.rx2 + 2 * e.rx2 - e.a *
  e.rx2 * e.sa) / e.a4) / 2 - (e.pz * (e.a3 * e.sa - e.a * e.rx2 * e.sa + e.a2 * e.ca * e.rx2 + 2 * e.rxryrz - 2 * e.ca * e.rxryrz
  - e.a * e.rxryrz * e.sa) / e.a4 - e.px * (e.a2 * e.ry - 2 * e.rx2ry + 2 * e.ca * e.rx2ry - e.a2 * e.ca * e.ry - e.a * e.rxrz *
  e.sa + e.a2 * e.ca * e.rxrz + e.a * e.rx2ry * e.sa) / e.a4 + e.py * e.rx * (e.a3 * e.sa - 2 * e.ca * e.ry2 + 2 * e.ry2 - e.a *
  e.ry2 * e.sa) / e.a4) * (2 * e.pz * (e.a2 * e.ry - 2 * e.ryrz2 + 2 * e.ca * e.ryrz2 - e.a2 * e.ca * e.ry + e.a * e.rxrz * e.sa -
  e.a2 * e.ca * e.rxrz + e.a * e.ryrz2 * e.sa) / e.a4 + 2 * e.px * (e.a3 * e.sa - e.a * e.rz2 * e.sa + e.a2 * e.ca * e.rz2 - 2 *
  e.rxryrz + 2 * e.ca * e.rxryrz + e.a * e.rxryrz * e.sa) / e.a4 - 2 * e.py * e.rz * (e.a3 * e.sa - 2 * e.ca * e.ry2 + 2 * e.ry2 -
  e.a * e.ry2 * e.sa) / e.a4) / 2 - (2 * e.px * (2 * e.a2 * e.ryrz + e.a3 * e.rx * e.sa - 8 * e.rx2ryrz - e.a4 * e.ca * e.rx - 2 *
  e.a2 * e.ca * e.ryrz - 3 * e.a * e.rxrz2 * e.sa - e.a3 * e.ryrz * e.sa + 8 * e.ca * e.rx2ryrz + 3 * e.a2 * e.ca * e.rxrz2 + e.a3
  * e.rxrz2 * e.sa - e.a2 * e.ca * e.rx2ryrz + 5 * e.a * e.rx2ryrz * e.sa) / e.a6 - 2 * e.pz * (e.a3 * e.rz * e.sa - 2 * e.a2 *
  e.rxry + 8 * e.rxryrz2 - e.a4 * e.ca * e.rz + 2 * e.a2 * e.ca * e.rxry + e.a3 * e.rxry * e.sa - 3 * e.a * e.rx2rz * e.sa - 8 *
  e.ca * e.rxryrz2 + 3 * e.a2 * e.ca * e.rx2rz + e.a3 * e.rx2rz * e.sa + e.a2 * e.ca * e.rxryrz2 - 5 * e.a * e.rxryrz2 * e.sa) /
  e.a6 + 2 * e.py * e.rxrz * (e.a4 * e.ca - e.a3 * e.sa + 8 * e.ca * e.ry2 - 8 * e.ry2 + 5 * e.a * e.ry2 * e.sa - e.a2 * e.ca *
  e.ry2) / e.a6) * (e.a2 * e.ty - e.a2 * e.qy + e.py * e.ry2 - e.ca * e.py * e.ry2 + e.px * e.rxry + e.pz * e.ryrz + e.a2 * e.ca *
  e.py + e.a * e.px * e.rz * e.sa - e.a * e.pz * e.rx * e.sa - e.ca * e.px * e.rxry - e.ca * e.pz * e.ryrz) / (2 * e.a2) + (2 *
  e.pz * (8 * e.rx2rz2 - e.a4 * e.ca + e.a4 - 2 * e.a2 * e.rx2 - 2 * e.a2 * e.rz2 + 2 * e.a2 * e.ca * e.rx2 + 2 * e.a2 * e.ca *
  e.rz2 + e.a3 * e.rx2 * e.sa + e.a3 * e.rz2 * e.sa - 8 * e.ca * e.rx2rz2 + e.a2 * e.ca * e.rx2rz2 - 5 * e.a * e.rx2rz2 * e.sa + 3
  * e.a * e.rxryrz * e.sa - 3 * e.a2 * e.ca * e.rxryrz - e.a3 * e.rxryrz * e.sa) / e.a6 + 2 * e.py * (e.a3 * e.rx * e.sa - 2 *
  e.a2 * e.ryrz + 8 * e.rx2ryrz - e.a4 * e.ca * e.rx + 2 * e.a2 * e.ca * e.ryrz - 3 * e.a * e.rxrz2 * e.sa + e.a3 * e.ryrz * e.sa
  - 8 * e.ca * e.rx2ryrz + 3 * e.a2 * e.ca * e.rxrz2 + e.a3 * e.rxrz2 * e.sa + e.a2 * e.ca * e.rx2ryrz - 5 * e.a * e.rx2ryrz *
  e.sa) / e.a6 + 2 * e.px * e.rxrz * (4 * e.a2 * e.ca - e.a4 * e.ca + 3 * e.a3 * e.sa - 8 * e.ca * e.rx2 - 4 * e.a2 + 8 * e.rx2 -
  5 * e.a * e.rx2 * e.sa + e.a2 * e.ca * e.rx2) / e.a6) * (e.a2 * e.tx - e.a2 * e.qx + e.px * e.rx2 - e.ca * e.px * e.rx2 + e.py *
  e.rxry + e.pz * e.rxrz + e.a2 * e.ca * e.px - e.a * e.py * e.rz * e.sa + e.a * e.pz * e.ry * e.sa - e.ca * e.py * e.rxry - e.ca
  * e.pz * e.rxrz) / (2 * e.a2) + (2 * e.px * (8 * e.rx2rz2 - e.a4 * e.ca + e.a4 - 2 * e.a2 * e.rx2 - 2 * e.a2 * e.rz2 + 2 * e.a2
  * e.ca * e.rx2 + 2 * e.a2 * e.ca * e.rz2 + e.a3 * e.rx2 * e.sa + e.a3 * e.rz2 * e.sa - 8 * e.ca * e.rx2rz2 + e.a2 * e.ca *
  e.rx2rz2 - 5 * e.a * e.rx2rz2 * e.sa - 3 * e.a * e.rxryrz * e.sa + 3 * e.a2 * e.ca * e.rxryrz + e.a3 * e.rxryrz * e.sa) / e.a6 -
  2 * e.py * (2 * e.a2 * e.rxry + e.a3 * e.rz * e.sa - 8 * e.rxryrz2 - e.a4 * e.ca * e.rz - 2 * e.a2 * e.ca * e.rxry - e.a3 *
  e.rxry * e.sa - 3 * e.a * e.rx2rz * e.sa + 8 * e.ca * e.rxryrz2 + 3 * e.a2 * e.ca * e.rx2rz + e.a3 * e.rx2rz * e.sa - e.a2 *
  e.ca * e.rxryrz2 + 5 * e.a * e.rxryrz2 * e.sa) / e.a6 + 2 * e.pz * e.rxrz * (4 * e.a2 * e.ca - e.a4 * e.ca + 3 * e.a3 * e.sa - 8
  * e.ca * e.rz2 - 4 * e.a2 + 8 * e.rz2 - 5 * e.a * e.rz2 * e.sa + e.a2 * e.ca * e.rz2) / e.a6) * (e.a2 * e.tz - e.a2 * e.qz +
  e.pz * e.rz2 - e.ca * e.pz * e.rz2 + e.px * e.rxrz + e.py * e.ryrz + e.a2 * e.ca * e.pz - e.a * e.px * e.ry * e.sa + e.a * e.py
  * e.rx * e.sa - e.ca * e.px * e.rxrz - e.ca * e.py * e.ryrz) / (2 * e.a2)

/-- Entry (2, 1), covariance-inl.hpp:1068-1166. -/
noncomputable def e21 (e : Env) : ℝ :=
  (e.px * (e.a2 * e.rx - 2 * e.rxry2 + 2 * e.ca * e.rxry2 - e.a2 * e.ca * e.rx - e.a * e.ryrz * e.sa + e.a2 * e.ca * e.ryrz + e.a
  * e.rxry2 * e.sa) / e.a4 + e.pz * (e.a2 * e.rz - 2 * e.ry2rz + 2 * e.ca * e.ry2rz - e.a2 * e.ca * e.rz + e.a * e.rxry * e.sa -
  e.a2 * e.ca * e.rxry + e.a * e.ry2rz * e.sa) / e.a4 - e.py * e.ry * (e.a2 - e.ry2) * (2 * e.ca + e.a * e.sa - 2) / e.a4) * (2 *
  e.pz * (e.a2 * e.ry - 2 * e.ryrz2 + 2 * e.ca * e.ryrz2 - e.a2 * e.ca * e.ry + e.a * e.rxrz * e.sa - e.a2 * e.ca * e.rxrz + e.a *
  e.ryrz2 * e.sa) / e.a4 + 2 * e.px * (e.a3 * e.sa - e.a * e.rz2 * e.sa + e.a2 * e.ca * e.rz2 - 2 * e.rxryrz + 2 * e.ca * e.rxryrz
  + e.a * e.rxryrz * e.sa) / e.a4 - 2 * e.py * e.rz * (e.a3 * e.sa - 2 * e.ca * e.ry2 + 2 * e.ry2 - e.a * e.ry2 * e.sa) / e.a4) /
  2 - (2 * e.px * (e.a2 * e.rx - 2 * e.rxrz2 + 2 * e.ca * e.rxrz2 - e.a2 * e.ca * e.rx + e.a * e.ryrz * e.sa - e.a2 * e.ca *
  e.ryrz + e.a * e.rxrz2 * e.sa) / e.a4 + 2 * e.py * (e.a2 * e.ry - 2 * e.ryrz2 + 2 * e.ca * e.ryrz2 - e.a2 * e.ca * e.ry - e.a *
  e.rxrz * e.sa + e.a2 * e.ca * e.rxrz + e.a * e.ryrz2 * e.sa) / e.a4 - 2 * e.pz * e.rz * (e.a2 - e.rz2) * (2 * e.ca + e.a * e.sa
  - 2) / e.a4) * (e.px * (e.a3 * e.sa - e.a * e.ry2 * e.sa + e.a2 * e.ca * e.ry2 + 2 * e.rxryrz - 2 * e.ca * e.rxryrz - e.a *
  e.rxryrz * e.sa) / e.a4 - e.py * (e.a2 * e.rz - 2 * e.ry2rz + 2 * e.ca * e.ry2rz - e.a2 * e.ca * e.rz - e.a * e.rxry * e.sa +
  e.a2 * e.ca * e.rxry + e.a * e.ry2rz * e.sa) / e.a4 + e.pz * e.ry * (e.a3 * e.sa - 2 * e.ca * e.rz2 + 2 * e.rz2 - e.a * e.rz2 *
  e.sa) / e.a4) / 2 - (e.py * (e.a2 * e.rx - 2 * e.rxry2 + 2 * e.ca * e.rxry2 - e.a2 * e.ca * e.rx + e.a * e.ryrz * e.sa - e.a2 *
  e.ca * e.ryrz + e.a * e.rxry2 * e.sa) / e.a4 + e.pz * (e.a3 * e.sa - e.a * e.ry2 * e.sa + e.a2 * e.ca * e.ry2 - 2 * e.rxryrz + 2
  * e.ca * e.rxryrz + e.a * e.rxryrz * e.sa) / e.a4 - e.px * e.ry * (e.a3 * e.sa - 2 * e.ca * e.rx2 + 2 * e.rx2 - e.a * e.rx2 *
  e.sa) / e.a4) * (2 * e.py * (e.a3 * e.sa - e.a * e.rz2 * e.sa + e.a2 * e.ca * e.rz2 + 2 * e.rxryrz - 2 * e.ca * e.rxryrz - e.a *
  e.rxryrz * e.sa) / e.a4 - 2 * e.pz * (e.a2 * e.rx - 2 * e.rxrz2 + 2 * e.ca * e.rxrz2 - e.a2 * e.ca * e.rx - e.a * e.ryrz * e.sa
  + e.a2 * e.ca * e.ryrz + e.a * e.rxrz2 * e.sa) / e.a4 + 2 * e.px * e.rz * (e.a3 * e.sa - 2 * e.ca * e.rx2 + 2 * e.rx2 - e.a *
  e.rx2 * e.sa) / e.a4) / 2 - (2 * e.pz * (2 * e.a2 * e.rxry + e.a3 * e.rz * e.sa - 8 * e.rxryrz2 - e.a4 * e.ca * e.rz - 2 * e.a2
  * e.ca * e.rxry - e.a3 * e.rxry * e.sa - 3 * e.a * e.ry2rz * e.sa + 8 * e.ca * e.rxryrz2 + 3 * e.a2 * e.ca * e.ry2rz + e.a3 *
  e.ry2rz * e.sa - e.a2 * e.ca * e.rxryrz2 + 5 * e.a * e.rxryrz2 * e.sa) / e.a6 - 2 * e.py * (e.a3 * e.ry * e.sa - 2 * e.a2 *
  e.rxrz + 8 * e.rxry2rz - e.a4 * e.ca * e.ry + 2 * e.a2 * e.ca * e.rxrz + e.a3 * e.rxrz * e.sa - 3 * e.a * e.ryrz2 * e.sa - 8 *
  e.ca * e.rxry2rz + 3 * e.a2 * e.ca * e.ryrz2 + e.a3 * e.ryrz2 * e.sa + e.a2 * e.ca * e.rxry2rz - 5 * e.a * e.rxry2rz * e.sa) /
  e.a6 + 2 * e.px * e.ryrz * (e.a4 * e.ca - e.a3 * e.sa + 8 * e.ca * e.rx2 - 8 * e.rx2 + 5 * e.a * e.rx2 * e.sa - e.a2 * e.ca *
  e.rx2) / e.a6) * (e.a2 * e.tx - e.a2 * e.qx + e.px * e.rx2 - e.ca * e.px * e.rx2 + e.py * e.rxry + e.pz * e.rxrz + e.a2 * e.ca *
  e.px - e.a * e.py * e.rz * e.sa + e.a * e.pz * e.ry * e.sa - e.ca * e.py * e.rxry - e.ca * e.pz * e.rxrz) / (2 * e.a2) + (2 *
  e.pz * (8 * e.ry2rz2 - e.a4 * e.ca + e.a4 - 2 * e.a2 * e.ry2 - 2 * e.a2 * e.rz2 + 2 * e.a2 * e.ca * e.ry2 + 2 * e.a2 * e.ca *
  e.rz2 + e.a3 * e.ry2 * e.sa + e.a3 * e.rz2 * e.sa - 8 * e.ca * e.ry2rz2 + e.a2 * e.ca * e.ry2rz2 - 5 * e.a * e.ry2rz2 * e.sa - 3
  * e.a * e.rxryrz * e.sa + 3 * e.a2 * e.ca * e.rxryrz + e.a3 * e.rxryrz * e.sa) / e.a6 - 2 * e.px * (2 * e.a2 * e.rxrz + e.a3 *
  e.ry * e.sa - 8 * e.rxry2rz - e.a4 * e.ca * e.ry - 2 * e.a2 * e.ca * e.rxrz - e.a3 * e.rxrz * e.sa - 3 * e.a * e.ryrz2 * e.sa +
  8 * e.ca * e.rxry2rz + 3 * e.a2 * e.ca * e.ryrz2 + e.a3 * e.ryrz2 * e.sa - e.a2 * e.ca * e.rxry2rz + 5 * e.a * e.rxry2rz * e.sa)
  / e.a6 + 2 * e.py * e.ryrz * (4 * e.a2 * e.ca - e.a4 * e.ca + 3 * e.a3 * e.sa - 8 * e.ca * e.ry2 - 4 * e.a2 + 8 * e.ry2 - 5 *
  e.a * e.ry2 * e.sa + e.a2 * e.ca * e.ry2) / e.a6) * (e.a2 * e.ty - e.a2 * e.qy + e.py * e.ry2 - e.ca * e.py * e.ry2 + e.px *
  e.rxry + e.pz * e.ryrz + e.a2 * e.ca * e.py + e.a * e.px * e.rz * e.sa - e.a * e.pz * e.rx * e.sa - e.ca * e.px * e.rxry - e.ca
  * e.pz * e.ryrz) / (2 * e.a2) + (2 * e.py * (8 * e.ry2rz2 - e.a4 * e.ca + e.a4 - 2 * e.a2 * e.ry2 - 2 * e.a2 * e.rz2 + 2 * e.a2
  * e.ca * e.ry2 + 2 * e.a2 * e.ca * e.rz2 + e.a3 * e.ry2 * e.sa + e.a3 * e.rz2 * e.sa - 8 * e.ca * e.ry2rz2 + e.a2 * e.ca *
  e.ry2rz2 - 5 * e.a * e.ry2rz2 * e.sa + 3 * e.a * e.rxryrz * e.sa - 3 * e.a2 * e.ca * e.rxryrz - e.a3 * e.rxryrz * e.sa) / e.a6 +
  2 * e.px * (e.a3 * e.rz * e.sa - 2 * e.a2 * e.rxry + 8 * e.rxryrz2 - e.a4 * e.ca * e.rz + 2 * e.a2 * e.ca * e.rxry + e.a3 *
  e.rxry * e.sa - 3 * e.a * e.ry2rz * e.sa - 8 * e.ca * e.rxryrz2 + 3 * e.a2 * e.ca * e.ry2rz + e.a3 * e.ry2rz * e.sa + e.a2 *
  e.ca * e.rxryrz2 - 5 * e.a * e.rxryrz2 * e.sa) / e.a6 + 2 * e.pz * e.ryrz * (4 * e.a2 * e.ca - e.a4 * e.ca + 3 * e.a3 * e.sa - 8
  * e.ca * e.rz2 - 4 * e.a2 + 8 * e.rz2 - 5 * e.a * e.rz2 * e.sa + e.a2 * e.ca * e.rz2) / e.a6) * (e.a2 * e.tz - e.a2 * e.qz +
  e.pz * e.rz2 - e.ca * e.pz * e.rz2 + e.px * e.rxrz + e.py * e.ryrz + e.a2 * e.ca * e.pz - e.a * e.px * e.ry * e.sa + e.a * e.py
  * e.rx * e.sa - e.ca * e.px * e.rxrz - e.ca * e.py * e.ryrz) / (2 * e.a2)

/-- Entry (2, 2), covariance-inl.hpp:1167-1266. -/
noncomputable def e22 (e : Env) : ℝ :=
  (e.py * (e.a3 * e.sa - e.a * e.rz2 * e.sa + e.a2 * e.ca * e.rz2 + 2 * e.rxryrz - 2 * e.ca * e.rxryrz - e.a * e.rxryrz * e.sa) /
  e.a4 - e.pz * (e.a2 * e.rx - 2 * e.rxrz2 + 2 * e.ca * e.rxrz2 - e.a2 * e.ca * e.rx - e.a * e.ryrz * e.sa + e.a2 * e.ca * e.ryrz
  + e.a * e.rxrz2 * e.sa) / e.a4 + e.px * e.rz * (e.a3 * e.sa - 2 * e.ca * e.rx2 + 2 * e.rx2 - e.a * e.rx2 * e.sa) / e.a4) * (2 *
  e.py * (e.a3 * e.sa - e.a * e.rz2 * e.sa + e.a2 * e.ca * e.rz2 + 2 * e.rxryrz - 2 * e.ca * e.rxryrz - e.a * e.rxryrz * e.sa) /
  e.a4 - 2 * e.pz * (e.a2 * e.rx - 2 * e.rxrz2 + 2 * e.ca * e.rxrz2 - e.a2 * e.ca * e.rx - e.a * e.ryrz * e.sa + e.a2 * e.ca *
  e.ryrz + e.a * e.rxrz2 * e.sa) / e.a4 + 2 * e.px * e.rz * (e.a3 * e.sa - 2 * e.ca * e.rx2 + 2 * e.rx2 - e.a * e.rx2 * e.sa) /
  e.a4) / 2 + (e.pz * (e.a2 * e.ry - 2 * e.ryrz2 + 2 * e.ca * e.ryrz2 - e.a2 * e.ca * e.ry + e.a * e.rxrz * e.sa - e.a2 * e.ca *
  e.rxrz + e.a * e.ryrz2 * e.sa) / e.a4 + e.px * (e.a3 * e.sa - e.a * e.rz2 * e.sa + e.a2 * e.ca * e.rz2 - 2 * e.rxryrz + 2 * e.ca
  * e.rxryrz + e.a * e.rxryrz * e.sa) / e.a4 - e.py * e.rz * (e.a3 * e.sa - 2 * e.ca * e.ry2 + 2 * e.ry2 - e.a * e.ry2 * e.sa) /
  e.a4) * (2 * e.pz * (e.a2 * e.ry - 2 * e.ryrz2 + 2 * e.ca * e.ryrz2 - e.a2 * e.ca * e.ry + e.a * e.rxrz * e.sa - e.a2 * e.ca *
  e.rxrz + e.a * e.ryrz2 * e.sa) / e.a4 + 2 * e.px * (e.a3 * e.sa - e.a * e.rz2 * e.sa + e.a2 * e.ca * e.rz2 - 2 * e.rxryrz + 2 *
  e.ca * e.rxryrz + e.a * e.rxryrz * e.sa) / e.a4 - 2 * e.py * e.rz * (e.a3 * e.sa - 2 * e.ca * e.ry2 + 2 * e.ry2 - e.a * e.ry2 *
  e.sa) / e.a4) / 2 + (e.px * (e.a2 * e.rx - 2 * e.rxrz2 + 2 * e.ca * e.rxrz2 - e.a2 * e.ca * e.rx + e.a * e.ryrz * e.sa - e.a2 *
  e.ca * e.ryrz + e.a * e.rxrz2 * e.sa) / e.a4 + e.py * (e.a2 * e.ry - 2 * e.ryrz2 + 2 * e.ca * e.ryrz2 - e.a2 * e.ca * e.ry - e.a
  * e.rxrz * e.sa + e.a2 * e.ca * e.rxrz + e.a * e.ryrz2 * e.sa) / e.a4 - e.pz * e.rz * (e.a2 - e.rz2) * (2 * e.ca + e.a * e.sa -
  2) / e.a4) * (2 * e.px * (e.a2 * e.rx - 2 * e.rxrz2 + 2 * e.ca * e.rxrz2 - e.a2 * e.ca * e.rx + e.a * e.ryrz * e.sa - e.a2 *
  e.ca * e.ryrz + e.a * e.rxrz2 * e.sa) / e.a4 + 2 * e.py * (e.a2 * e.ry - 2 * e.ryrz2 + 2 * e.ca * e.ryrz2 - e.a2 * e.ca * e.ry -
  e.a * e.rxrz * e.sa + e.a2 * e.ca * e.rxrz + e.a * e.ryrz2 * e.sa) / e.a4 - 2 * e.pz * e.rz * (e.a2 - e.rz2) * (2 * e.ca + e.a *
  e.sa - 2) / e.a4) / 2 + (2 * e.px * (8 * e.rxrz3 - 6 * e.a2 * e.rxrz + e.a3 * e.ry * e.sa - 8 * e.ca * e.rxrz3 - e.a4 * e.ca *
  e.ry + 6 * e.a2 * e.ca * e.rxrz - 5 * e.a * e.rxrz3 * e.sa + 3 * e.a3 * e.rxrz * e.sa - 3 * e.a * e.ryrz2 * e.sa + e.a2 * e.ca *
  e.rxrz3 + 3 * e.a2 * e.ca * e.ryrz2 + e.a3 * e.ryrz2 * e.sa) / e.a6 + 2 * e.py * (8 * e.ryrz3 - 6 * e.a2 * e.ryrz - e.a3 * e.rx
  * e.sa - 8 * e.ca * e.ryrz3 + e.a4 * e.ca * e.rx + 6 * e.a2 * e.ca * e.ryrz + 3 * e.a * e.rxrz2 * e.sa - 5 * e.a * e.ryrz3 *
  e.sa + 3 * e.a3 * e.ryrz * e.sa - 3 * e.a2 * e.ca * e.rxrz2 + e.a2 * e.ca * e.ryrz3 - e.a3 * e.rxrz2 * e.sa) / e.a6 - 2 * e.pz *
  (e.a2 - e.rz2) * (2 * e.a2 * e.ca + e.a3 * e.sa - 8 * e.ca * e.rz2 - 2 * e.a2 + 8 * e.rz2 - 5 * e.a * e.rz2 * e.sa + e.a2 * e.ca
  * e.rz2) / e.a6) * (e.a2 * e.tz - e.a2 * e.qz + e.pz * e.rz2 - e.ca * e.pz * e.rz2 + e.px * e.rxrz + e.py * e.ryrz + e.a2 * e.ca
  * e.pz - e.a * e.px * e.ry * e.sa + e.a * e.py * e.rx * e.sa - e.ca * e.px * e.rxrz - e.ca * e.py * e.ryrz) / (2 * e.a2) + (2 *
  e.py * (3 * e.a3 * e.rz * e.sa - 3 * e.a * e.rz3 * e.sa - 2 * e.a2 * e.rxry + 8 * e.rxryrz2 + 3 * e.a2 * e.ca * e.rz3 + e.a3 *
  e.rz3 * e.sa - 3 * e.a4 * e.ca * e.rz + 2 * e.a2 * e.ca * e.rxry + e.a3 * e.rxry * e.sa - 8 * e.ca * e.rxryrz2 + e.a2 * e.ca *
  e.rxryrz2 - 5 * e.a * e.rxryrz2 * e.sa) / e.a6 + 2 * e.px * (8 * e.rx2rz2 - e.a5 * e.sa - 2 * e.a2 * e.rx2 + 2 * e.a2 * e.ca *
  e.rx2 - e.a4 * e.ca * e.rz2 + e.a3 * e.rx2 * e.sa + e.a3 * e.rz2 * e.sa - 8 * e.ca * e.rx2rz2 + e.a2 * e.ca * e.rx2rz2 - 5 * e.a
  * e.rx2rz2 * e.sa) / e.a6 + 2 * e.pz * (8 * e.rxrz3 - 6 * e.a2 * e.rxrz - e.a3 * e.ry * e.sa - 8 * e.ca * e.rxrz3 + e.a4 * e.ca
  * e.ry + 6 * e.a2 * e.ca * e.rxrz - 5 * e.a * e.rxrz3 * e.sa + 3 * e.a3 * e.rxrz * e.sa + 3 * e.a * e.ryrz2 * e.sa + e.a2 * e.ca
  * e.rxrz3 - 3 * e.a2 * e.ca * e.ryrz2 - e.a3 * e.ryrz2 * e.sa) / e.a6) * (e.a2 * e.tx - e.a2 * e.qx + e.px * e.rx2 - e.ca * e.px
  * e.rx2 + e.py * e.rxry + e.pz * e.rxrz + e.a2 * e.ca * e.px - e.a * e.py * e.rz * e.sa + e.a * e.pz * e.ry * e.sa - e.ca * e.py
  * e.rxry - e.ca * e.pz * e.rxrz) / (2 * e.a2) + (2 * e.py * (8 * e.ry2rz2 - e.a5 * e.sa - 2 * e.a2 * e.ry2 + 2 * e.a2 * e.ca *
  e.ry2 - e.a4 * e.ca * e.rz2 + e.a3 * e.ry2 * e.sa + e.a3 * e.rz2 * e.sa - 8 * e.ca * e.ry2rz2 + e.a2 * e.ca * e.ry2rz2 - 5 * e.a
  * e.ry2rz2 * e.sa) / e.a6 - 2 * e.px * (2 * e.a2 * e.rxry - 3 * e.a * e.rz3 * e.sa + 3 * e.a3 * e.rz * e.sa - 8 * e.rxryrz2 + 3
  * e.a2 * e.ca * e.rz3 + e.a3 * e.rz3 * e.sa - 3 * e.a4 * e.ca * e.rz - 2 * e.a2 * e.ca * e.rxry - e.a3 * e.rxry * e.sa + 8 *
  e.ca * e.rxryrz2 - e.a2 * e.ca * e.rxryrz2 + 5 * e.a * e.rxryrz2 * e.sa) / e.a6 + 2 * e.pz * (8 * e.ryrz3 - 6 * e.a2 * e.ryrz +
  e.a3 * e.rx * e.sa - 8 * e.ca * e.ryrz3 - e.a4 * e.ca * e.rx + 6 * e.a2 * e.ca * e.ryrz - 3 * e.a * e.rxrz2 * e.sa - 5 * e.a *
  e.ryrz3 * e.sa + 3 * e.a3 * e.ryrz * e.sa + 3 * e.a2 * e.ca * e.rxrz2 + e.a2 * e.ca * e.ryrz3 + e.a3 * e.rxrz2 * e.sa) / e.a6) *
  (e.a2 * e.ty - e.a2 * e.qy + e.py * e.ry2 - e.ca * e.py * e.ry2 + e.px * e.rxry + e.pz * e.ryrz + e.a2 * e.ca * e.py + e.a *
  e.px * e.rz * e.sa - e.a * e.pz * e.rx * e.sa - e.ca * e.px * e.rxry - e.ca * e.pz * e.ryrz) / (2 * e.a2)

/-- Entry (2, 3), covariance-inl.hpp:1267-1272. -/
noncomputable def e23 (e : Env) : ℝ :=
  e.pz * (e.a2 * e.rx - 2 * e.rxrz2 + 2 * e.ca * e.rxrz2 - e.a2 * e.ca * e.rx - e.a * e.ryrz * e.sa + e.a2 * e.ca * e.ryrz + e.a *
  e.rxrz2 * e.sa) / e.a4 - e.py * (e.a3 * e.sa - e.a * e.rz2 * e.sa + e.a2 * e.ca * e.rz2 + 2 * e.rxryrz - 2 * e.ca * e.rxryrz -
  e.a * e.rxryrz * e.sa) / e.a4 - e.px * e.rz * (e.a3 * e.sa - 2 * e.ca * e.rx2 + 2 * e.rx2 - e.a * e.rx2 * e.sa) / e.a4

/-- Entry (2, 4), covariance-inl.hpp:1273-1278. -/
noncomputable def e24 (e : Env) : ℝ :=
  e.pz * (e.a2 * e.ry - 2 * e.ryrz2 + 2 * e.ca * e.ryrz2 - e.a2 * e.ca * e.ry + e.a * e.rxrz * e.sa - e.a2 * e.ca * e.rxrz + e.a *
  e.ryrz2 * e.sa) / e.a4 + e.px * (e.a3 * e.sa - e.a * e.rz2 * e.sa + e.a2 * e.ca * e.rz2 - 2 * e.rxryrz + 2 * e.ca * e.rxryrz +
  e.a * e.rxryrz * e.sa) / e.a4 - e.py * e.rz * (e.a3 * e.sa - 2 * e.ca * e.ry2 + 2 * e.ry2 - e.a * e.ry2 * e.sa) / e.a4

/-- Entry (2, 5), covariance-inl.hpp:1279-1285. -/
noncomputable def e25 (e : Env) : ℝ :=
  e.px * (e.a2 * e.rx - 2 * e.rxrz2 + 2 * e.ca * e.rxrz2 - e.a2 * e.ca * e.rx + e.a * e.ryrz * e.sa - e.a2 * e.ca * e.ryrz + e.a *
  e.rxrz2 * e.sa) / e.a4 + e.py * (e.a2 * e.ry - 2 * e.ryrz2 + 2 * e.ca * e.ryrz2 - e.a2 * e.ca * e.ry - e.a * e.rxrz * e.sa +
  e.a2 * e.ca * e.rxrz + e.a * e.ryrz2 * e.sa) / e.a4 - e.pz * e.rz * (e.a2 - e.rz2) * (2 * e.ca + e.a * e.sa - 2) / e.a4

/-- Entry (3, 0), covariance-inl.hpp:1286-1292. -/
noncomputable def e30 (e : Env) : ℝ :=
  e.py * (e.a2 * e.ry - 2 * e.rx2ry + 2 * e.ca * e.rx2ry - e.a2 * e.ca * e.ry + e.a * e.rxrz * e.sa - e.a2 * e.ca * e.rxrz + e.a *
  e.rx2ry * e.sa) / e.a4 + e.pz * (e.a2 * e.rz - 2 * e.rx2rz + 2 * e.ca * e.rx2rz - e.a2 * e.ca * e.rz - e.a * e.rxry * e.sa +
  e.a2 * e.ca * e.rxry + e.a * e.rx2rz * e.sa) / e.a4 - e.px * e.rx * (e.a2 - e.rx2) * (2 * e.ca + e.a * e.sa - 2) / e.a4

/-- Entry (3, 1), covariance-inl.hpp:1293-1298. -/
noncomputable def e31 (e : Env) : ℝ :=
  e.py * (e.a2 * e.rx - 2 * e.rxry2 + 2 * e.ca * e.rxry2 - e.a2 * e.ca * e.rx + e.a * e.ryrz * e.sa - e.a2 * e.ca * e.ryrz + e.a *
  e.rxry2 * e.sa) / e.a4 + e.pz * (e.a3 * e.sa - e.a * e.ry2 * e.sa + e.a2 * e.ca * e.ry2 - 2 * e.rxryrz + 2 * e.ca * e.rxryrz +
  e.a * e.rxryrz * e.sa) / e.a4 - e.px * e.ry * (e.a3 * e.sa - 2 * e.ca * e.rx2 + 2 * e.rx2 - e.a * e.rx2 * e.sa) / e.a4

/-- Entry (3, 2), covariance-inl.hpp:1299-1304. -/
noncomputable def e32 (e : Env) : ℝ :=
  e.pz * (e.a2 * e.rx - 2 * e.rxrz2 + 2 * e.ca * e.rxrz2 - e.a2 * e.ca * e.rx - e.a * e.ryrz * e.sa + e.a2 * e.ca * e.ryrz + e.a *
  e.rxrz2 * e.sa) / e.a4 - e.py * (e.a3 * e.sa - e.a * e.rz2 * e.sa + e.a2 * e.ca * e.rz2 + 2 * e.rxryrz - 2 * e.ca * e.rxryrz -
  e.a * e.rxryrz * e.sa) / e.a4 - e.px * e.rz * (e.a3 * e.sa - 2 * e.ca * e.rx2 + 2 * e.rx2 - e.a * e.rx2 * e.sa) / e.a4

/-- Entry (3, 3), covariance-inl.hpp:1305. -/
noncomputable def e33 (_ : Env) : ℝ := 1

/-- Entry (3, 4), covariance-inl.hpp:1306. -/
noncomputable def e34 (_ : Env) : ℝ := 0

/-- Entry (3, 5), covariance-inl.hpp:1307. -/
noncomputable def e35 (_ : Env) : ℝ := 0

/-- Entry (4, 0), covariance-inl.hpp:1308-1313. -/
noncomputable def e40 (e : Env) : ℝ :=
  e.px * (e.a2 * e.ry - 2 * e.rx2ry + 2 * e.ca * e.rx2ry - e.a2 * e.ca * e.ry - e.a * e.rxrz * e.sa + e.a2 * e.ca * e.rxrz + e.a *
  e.rx2ry * e.sa) / e.a4 - e.pz * (e.a3 * e.sa - e.a * e.rx2 * e.sa + e.a2 * e.ca * e.rx2 + 2 * e.rxryrz - 2 * e.ca * e.rxryrz -
  e.a * e.rxryrz * e.sa) / e.a4 - e.py * e.rx * (e.a3 * e.sa - 2 * e.ca * e.ry2 + 2 * e.ry2 - e.a * e.ry2 * e.sa) / e.a4

/-- Entry (4, 1), covariance-inl.hpp:1314-1320. -/
noncomputable def e41 (e : Env) : ℝ :=
  e.px * (e.a2 * e.rx - 2 * e.rxry2 + 2 * e.ca * e.rxry2 - e.a2 * e.ca * e.rx - e.a * e.ryrz * e.sa + e.a2 * e.ca * e.ryrz + e.a *
  e.rxry2 * e.sa) / e.a4 + e.pz * (e.a2 * e.rz - 2 * e.ry2rz + 2 * e.ca * e.ry2rz - e.a2 * e.ca * e.rz + e.a * e.rxry * e.sa -
  e.a2 * e.ca * e.rxry + e.a * e.ry2rz * e.sa) / e.a4 - e.py * e.ry * (e.a2 - e.ry2) * (2 * e.ca + e.a * e.sa - 2) / e.a4

/-- Entry (4, 2), covariance-inl.hpp:1321-1326. -/
noncomputable def e42 (e : Env) : ℝ :=
  e.pz * (e.a2 * e.ry - 2 * e.ryrz2 + 2 * e.ca * e.ryrz2 - e.a2 * e.ca * e.ry + e.a * e.rxrz * e.sa - e.a2 * e.ca * e.rxrz + e.a *
  e.ryrz2 * e.sa) / e.a4 + e.px * (e.a3 * e.sa - e.a * e.rz2 * e.sa + e.a2 * e.ca * e.rz2 - 2 * e.rxryrz + 2 * e.ca * e.rxryrz +
  e.a * e.rxryrz * e.sa) / e.a4 - e.py * e.rz * (e.a3 * e.sa - 2 * e.ca * e.ry2 + 2 * e.ry2 - e.a * e.ry2 * e.sa) / e.a4

/-- Entry (4, 3), covariance-inl.hpp:1327. -/
noncomputable def e43 (_ : Env) : ℝ := 0

/-- Entry (4, 4), covariance-inl.hpp:1328. -/
noncomputable def e44 (_ : Env) : ℝ := 1

/-- Entry (4, 5), covariance-inl.hpp:1329. -/
noncomputable def e45 (_ : Env) : ℝ := 0

/-- Entry (5, 0), covariance-inl.hpp:1330-1335. -/
noncomputable def e50 (e : Env) : ℝ :=
  e.px * (e.a2 * e.rz - 2 * e.rx2rz + 2 * e.ca * e.rx2rz - e.a2 * e.ca * e.rz + e.a * e.rxry * e.sa - e.a2 * e.ca * e.rxry + e.a *
  e.rx2rz * e.sa) / e.a4 + e.py * (e.a3 * e.sa - e.a * e.rx2 * e.sa + e.a2 * e.ca * e.rx2 - 2 * e.rxryrz + 2 * e.ca * e.rxryrz +
  e.a * e.rxryrz * e.sa) / e.a4 - e.pz * e.rx * (e.a3 * e.sa - 2 * e.ca * e.rz2 + 2 * e.rz2 - e.a * e.rz2 * e.sa) / e.a4

/-- Entry (5, 1), covariance-inl.hpp:1336-1341. -/
noncomputable def e51 (e : Env) : ℝ :=
  e.py * (e.a2 * e.rz - 2 * e.ry2rz + 2 * e.ca * e.ry2rz - e.a2 * e.ca * e.rz - e.a * e.rxry * e.sa + e.a2 * e.ca * e.rxry + e.a *
  e.ry2rz * e.sa) / e.a4 - e.px * (e.a3 * e.sa - e.a * e.ry2 * e.sa + e.a2 * e.ca * e.ry2 + 2 * e.rxryrz - 2 * e.ca * e.rxryrz -
  e.a * e.rxryrz * e.sa) / e.a4 - e.pz * e.ry * (e.a3 * e.sa - 2 * e.ca * e.rz2 + 2 * e.rz2 - e.a * e.rz2 * e.sa) / e.a4

/-- Entry (5, 2), covariance-inl.hpp:1342-1348. -/
noncomputable def e52 (e : Env) : ℝ :=
  e.px * (e.a2 * e.rx - 2 * e.rxrz2 + 2 * e.ca * e.rxrz2 - e.a2 * e.ca * e.rx + e.a * e.ryrz * e.sa - e.a2 * e.ca * e.ryrz + e.a *
  e.rxrz2 * e.sa) / e.a4 + e.py * (e.a2 * e.ry - 2 * e.ryrz2 + 2 * e.ca * e.ryrz2 - e.a2 * e.ca * e.ry - e.a * e.rxrz * e.sa +
  e.a2 * e.ca * e.rxrz + e.a * e.ryrz2 * e.sa) / e.a4 - e.pz * e.rz * (e.a2 - e.rz2) * (2 * e.ca + e.a * e.sa - 2) / e.a4

/-- Entry (5, 3), covariance-inl.hpp:1349. -/
noncomputable def e53 (_ : Env) : ℝ := 0

/-- Entry (5, 4), covariance-inl.hpp:1350. -/
noncomputable def e54 (_ : Env) : ℝ := 0

/-- Entry (5, 5), covariance-inl.hpp:1351. -/
noncomputable def e55 (_ : Env) : ℝ := 1

/-- The matrix, covariance-inl.hpp:279-1353. -/
noncomputable def matrix (e : Env) : Mat6 ℝ :=
  fromBlocks (of ![![e00 e, e01 e, e02 e], ![e10 e, e11 e, e12 e], ![e20 e, e21 e, e22 e]])
    (of ![![e03 e, e04 e, e05 e], ![e13 e, e14 e, e15 e], ![e23 e, e24 e, e25 e]])
    (of ![![e30 e, e31 e, e32 e], ![e40 e, e41 e, e42 e], ![e50 e, e51 e, e52 e]])
    (of ![![e33 e, e34 e, e35 e], ![e43 e, e44 e, e45 e], ![e53 e, e54 e, e55 e]])

end PointDx2

end Lidar

end Serpent
