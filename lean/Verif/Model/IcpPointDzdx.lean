import Verif.Model.IcpEnv

/-!
# Model of `PointToPointIcpNonlinearModel::compute_half_d2F_dzdx`

covariance-inl.hpp:1355-1878, one definition for each entry of the matrix.
-/

namespace Serpent

namespace Lidar

namespace PointDzdx

open Matrix EigenExt

/-- Entry (0, 0), covariance-inl.hpp:1400-1443. -/
noncomputable def e00 (e : Env) : ℝ :=
  (e.a2 * e.ry - 2 * e.rx2ry + 2 * e.ca * e.rx2ry - e.a2 * e.ca * e.ry - e.a * e.rxrz * e.sa + e.a2 * e.ca * e.rxrz + e.a *
  e.rx2ry * e.sa) * (e.a2 * e.ty - e.a2 * e.qy + e.py * e.ry2 - e.ca * e.py * e.ry2 + e.px * e.rxry + e.pz * e.ryrz + e.a2 * e.ca
  * e.py + e.a * e.px * e.rz * e.sa - e.a * e.pz * e.rx * e.sa - e.ca * e.px * e.rxry - e.ca * e.pz * e.ryrz) / e.a6 - (2 * e.px *
  (e.a2 * e.rz - 2 * e.rx2rz + 2 * e.ca * e.rx2rz - e.a2 * e.ca * e.rz + e.a * e.rxry * e.sa - e.a2 * e.ca * e.rxry + e.a *
  e.rx2rz * e.sa) / e.a4 + 2 * e.py * (e.a3 * e.sa - e.a * e.rx2 * e.sa + e.a2 * e.ca * e.rx2 - 2 * e.rxryrz + 2 * e.ca * e.rxryrz
  + e.a * e.rxryrz * e.sa) / e.a4 - 2 * e.pz * e.rx * (e.a3 * e.sa - 2 * e.ca * e.rz2 + 2 * e.rz2 - e.a * e.rz2 * e.sa) / e.a4) *
  (e.a * e.ry * e.sa - e.rxrz + e.ca * e.rxrz) / (2 * e.a2) - (2 * e.pz * (e.a3 * e.sa - e.a * e.rx2 * e.sa + e.a2 * e.ca * e.rx2
  + 2 * e.rxryrz - 2 * e.ca * e.rxryrz - e.a * e.rxryrz * e.sa) / e.a4 - 2 * e.px * (e.a2 * e.ry - 2 * e.rx2ry + 2 * e.ca *
  e.rx2ry - e.a2 * e.ca * e.ry - e.a * e.rxrz * e.sa + e.a2 * e.ca * e.rxrz + e.a * e.rx2ry * e.sa) / e.a4 + 2 * e.py * e.rx *
  (e.a3 * e.sa - 2 * e.ca * e.ry2 + 2 * e.ry2 - e.a * e.ry2 * e.sa) / e.a4) * (e.rxry + e.a * e.rz * e.sa - e.ca * e.rxry) / (2 *
  e.a2) + (e.a2 * e.rz - 2 * e.rx2rz + 2 * e.ca * e.rx2rz - e.a2 * e.ca * e.rz + e.a * e.rxry * e.sa - e.a2 * e.ca * e.rxry + e.a
  * e.rx2rz * e.sa) * (e.a2 * e.tz - e.a2 * e.qz + e.pz * e.rz2 - e.ca * e.pz * e.rz2 + e.px * e.rxrz + e.py * e.ryrz + e.a2 *
  e.ca * e.pz - e.a * e.px * e.ry * e.sa + e.a * e.py * e.rx * e.sa - e.ca * e.px * e.rxrz - e.ca * e.py * e.ryrz) / e.a6 + (2 *
  e.py * (e.a2 * e.ry - 2 * e.rx2ry + 2 * e.ca * e.rx2ry - e.a2 * e.ca * e.ry + e.a * e.rxrz * e.sa - e.a2 * e.ca * e.rxrz + e.a *
  e.rx2ry * e.sa) / e.a4 + 2 * e.pz * (e.a2 * e.rz - 2 * e.rx2rz + 2 * e.ca * e.rx2rz - e.a2 * e.ca * e.rz - e.a * e.rxry * e.sa +
  e.a2 * e.ca * e.rxry + e.a * e.rx2rz * e.sa) / e.a4 - 2 * e.px * e.rx * (e.a2 - e.rx2) * (2 * e.ca + e.a * e.sa - 2) / e.a4) *
  (e.a2 * e.ca - e.ca * e.rx2 + e.rx2) / (2 * e.a2) - e.rx * (e.a2 - e.rx2) * (2 * e.ca + e.a * e.sa - 2) * (e.a2 * e.tx - e.a2 *
  e.qx + e.px * e.rx2 - e.ca * e.px * e.rx2 + e.py * e.rxry + e.pz * e.rxrz + e.a2 * e.ca * e.px - e.a * e.py * e.rz * e.sa + e.a
  * e.pz * e.ry * e.sa - e.ca * e.py * e.rxry - e.ca * e.pz * e.rxrz) / e.a6

/-- Entry (0, 1), covariance-inl.hpp:1444-1489. -/
noncomputable def e01 (e : Env) : ℝ :=
  (2 * e.px * (e.a2 * e.rz - 2 * e.rx2rz + 2 * e.ca * e.rx2rz - e.a2 * e.ca * e.rz + e.a * e.rxry * e.sa - e.a2 * e.ca * e.rxry +
  e.a * e.rx2rz * e.sa) / e.a4 + 2 * e.py * (e.a3 * e.sa - e.a * e.rx2 * e.sa + e.a2 * e.ca * e.rx2 - 2 * e.rxryrz + 2 * e.ca *
  e.rxryrz + e.a * e.rxryrz * e.sa) / e.a4 - 2 * e.pz * e.rx * (e.a3 * e.sa - 2 * e.ca * e.rz2 + 2 * e.rz2 - e.a * e.rz2 * e.sa) /
  e.a4) * (e.ryrz + e.a * e.rx * e.sa - e.ca * e.ryrz) / (2 * e.a2) - (2 * e.py * (e.a2 * e.ry - 2 * e.rx2ry + 2 * e.ca * e.rx2ry
  - e.a2 * e.ca * e.ry + e.a * e.rxrz * e.sa - e.a2 * e.ca * e.rxrz + e.a * e.rx2ry * e.sa) / e.a4 + 2 * e.pz * (e.a2 * e.rz - 2 *
  e.rx2rz + 2 * e.ca * e.rx2rz - e.a2 * e.ca * e.rz - e.a * e.rxry * e.sa + e.a2 * e.ca * e.rxry + e.a * e.rx2rz * e.sa) / e.a4 -
  2 * e.px * e.rx * (e.a2 - e.rx2) * (2 * e.ca + e.a * e.sa - 2) / e.a4) * (e.a * e.rz * e.sa - e.rxry + e.ca * e.rxry) / (2 *
  e.a2) + (e.a2 * e.ry - 2 * e.rx2ry + 2 * e.ca * e.rx2ry - e.a2 * e.ca * e.ry + e.a * e.rxrz * e.sa - e.a2 * e.ca * e.rxrz + e.a
  * e.rx2ry * e.sa) * (e.a2 * e.tx - e.a2 * e.qx + e.px * e.rx2 - e.ca * e.px * e.rx2 + e.py * e.rxry + e.pz * e.rxrz + e.a2 *
  e.ca * e.px - e.a * e.py * e.rz * e.sa + e.a * e.pz * e.ry * e.sa - e.ca * e.py * e.rxry - e.ca * e.pz * e.rxrz) / e.a6 + (e.a3
  * e.sa - e.a * e.rx2 * e.sa + e.a2 * e.ca * e.rx2 - 2 * e.rxryrz + 2 * e.ca * e.rxryrz + e.a * e.rxryrz * e.sa) * (e.a2 * e.tz -
  e.a2 * e.qz + e.pz * e.rz2 - e.ca * e.pz * e.rz2 + e.px * e.rxrz + e.py * e.ryrz + e.a2 * e.ca * e.pz - e.a * e.px * e.ry * e.sa
  + e.a * e.py * e.rx * e.sa - e.ca * e.px * e.rxrz - e.ca * e.py * e.ryrz) / e.a6 - (e.a2 * e.ca - e.ca * e.ry2 + e.ry2) * (2 *
  e.pz * (e.a3 * e.sa - e.a * e.rx2 * e.sa + e.a2 * e.ca * e.rx2 + 2 * e.rxryrz - 2 * e.ca * e.rxryrz - e.a * e.rxryrz * e.sa) /
  e.a4 - 2 * e.px * (e.a2 * e.ry - 2 * e.rx2ry + 2 * e.ca * e.rx2ry - e.a2 * e.ca * e.ry - e.a * e.rxrz * e.sa + e.a2 * e.ca *
  e.rxrz + e.a * e.rx2ry * e.sa) / e.a4 + 2 * e.py * e.rx * (e.a3 * e.sa - 2 * e.ca * e.ry2 + 2 * e.ry2 - e.a * e.ry2 * e.sa) /
  e.a4) / (2 * e.a2) - e.rx * (e.a3 * e.sa - 2 * e.ca * e.ry2 + 2 * e.ry2 - e.a * e.ry2 * e.sa) * (e.a2 * e.ty - e.a2 * e.qy +
  e.py * e.ry2 - e.ca * e.py * e.ry2 + e.px * e.rxry + e.pz * e.ryrz + e.a2 * e.ca * e.py + e.a * e.px * e.rz * e.sa - e.a * e.pz
  * e.rx * e.sa - e.ca * e.px * e.rxry - e.ca * e.pz * e.ryrz) / e.a6

/-- Entry (0, 2), covariance-inl.hpp:1490-1533. -/
noncomputable def e02 (e : Env) : ℝ :=
  (2 * e.py * (e.a2 * e.ry - 2 * e.rx2ry + 2 * e.ca * e.rx2ry - e.a2 * e.ca * e.ry + e.a * e.rxrz * e.sa - e.a2 * e.ca * e.rxrz +
  e.a * e.rx2ry * e.sa) / e.a4 + 2 * e.pz * (e.a2 * e.rz - 2 * e.rx2rz + 2 * e.ca * e.rx2rz - e.a2 * e.ca * e.rz - e.a * e.rxry *
  e.sa + e.a2 * e.ca * e.rxry + e.a * e.rx2rz * e.sa) / e.a4 - 2 * e.px * e.rx * (e.a2 - e.rx2) * (2 * e.ca + e.a * e.sa - 2) /
  e.a4) * (e.rxrz + e.a * e.ry * e.sa - e.ca * e.rxrz) / (2 * e.a2) + (2 * e.pz * (e.a3 * e.sa - e.a * e.rx2 * e.sa + e.a2 * e.ca
  * e.rx2 + 2 * e.rxryrz - 2 * e.ca * e.rxryrz - e.a * e.rxryrz * e.sa) / e.a4 - 2 * e.px * (e.a2 * e.ry - 2 * e.rx2ry + 2 * e.ca
  * e.rx2ry - e.a2 * e.ca * e.ry - e.a * e.rxrz * e.sa + e.a2 * e.ca * e.rxrz + e.a * e.rx2ry * e.sa) / e.a4 + 2 * e.py * e.rx *
  (e.a3 * e.sa - 2 * e.ca * e.ry2 + 2 * e.ry2 - e.a * e.ry2 * e.sa) / e.a4) * (e.a * e.rx * e.sa - e.ryrz + e.ca * e.ryrz) / (2 *
  e.a2) + (e.a2 * e.rz - 2 * e.rx2rz + 2 * e.ca * e.rx2rz - e.a2 * e.ca * e.rz - e.a * e.rxry * e.sa + e.a2 * e.ca * e.rxry + e.a
  * e.rx2rz * e.sa) * (e.a2 * e.tx - e.a2 * e.qx + e.px * e.rx2 - e.ca * e.px * e.rx2 + e.py * e.rxry + e.pz * e.rxrz + e.a2 *
  e.ca * e.px - e.a * e.py * e.rz * e.sa + e.a * e.pz * e.ry * e.sa - e.ca * e.py * e.rxry - e.ca * e.pz * e.rxrz) / e.a6 - (e.a3
  * e.sa - e.a * e.rx2 * e.sa + e.a2 * e.ca * e.rx2 + 2 * e.rxryrz - 2 * e.ca * e.rxryrz - e.a * e.rxryrz * e.sa) * (e.a2 * e.ty -
  e.a2 * e.qy + e.py * e.ry2 - e.ca * e.py * e.ry2 + e.px * e.rxry + e.pz * e.ryrz + e.a2 * e.ca * e.py + e.a * e.px * e.rz * e.sa
  - e.a * e.pz * e.rx * e.sa - e.ca * e.px * e.rxry - e.ca * e.pz * e.ryrz) / e.a6 + (e.a2 * e.ca - e.ca * e.rz2 + e.rz2) * (2 *
  e.px * (e.a2 * e.rz - 2 * e.rx2rz + 2 * e.ca * e.rx2rz - e.a2 * e.ca * e.rz + e.a * e.rxry * e.sa - e.a2 * e.ca * e.rxry + e.a *
  e.rx2rz * e.sa) / e.a4 + 2 * e.py * (e.a3 * e.sa - e.a * e.rx2 * e.sa + e.a2 * e.ca * e.rx2 - 2 * e.rxryrz + 2 * e.ca * e.rxryrz
  + e.a * e.rxryrz * e.sa) / e.a4 - 2 * e.pz * e.rx * (e.a3 * e.sa - 2 * e.ca * e.rz2 + 2 * e.rz2 - e.a * e.rz2 * e.sa) / e.a4) /
  (2 * e.a2) - e.rx * (e.a3 * e.sa - 2 * e.ca * e.rz2 + 2 * e.rz2 - e.a * e.rz2 * e.sa) * (e.a2 * e.tz - e.a2 * e.qz + e.pz *
  e.rz2 - e.ca * e.pz * e.rz2 + e.px * e.rxrz + e.py * e.ryrz + e.a2 * e.ca * e.pz - e.a * e.px * e.ry * e.sa + e.a * e.py * e.rx
  * e.sa - e.ca * e.px * e.rxrz - e.ca * e.py * e.ryrz) / e.a6

/-- Entry (0, 3), covariance-inl.hpp:1534-1540. -/
noncomputable def e03 (e : Env) : ℝ :=
  e.px * e.rx * (e.a2 - e.rx2) * (2 * e.ca + e.a * e.sa - 2) / e.a4 - e.pz * (e.a2 * e.rz - 2 * e.rx2rz + 2 * e.ca * e.rx2rz -
  e.a2 * e.ca * e.rz - e.a * e.rxry * e.sa + e.a2 * e.ca * e.rxry + e.a * e.rx2rz * e.sa) / e.a4 - e.py * (e.a2 * e.ry - 2 *
  e.rx2ry + 2 * e.ca * e.rx2ry - e.a2 * e.ca * e.ry + e.a * e.rxrz * e.sa - e.a2 * e.ca * e.rxrz + e.a * e.rx2ry * e.sa) / e.a4

/-- Entry (0, 4), covariance-inl.hpp:1541-1546. -/
noncomputable def e04 (e : Env) : ℝ :=
  e.pz * (e.a3 * e.sa - e.a * e.rx2 * e.sa + e.a2 * e.ca * e.rx2 + 2 * e.rxryrz - 2 * e.ca * e.rxryrz - e.a * e.rxryrz * e.sa) /
  e.a4 - e.px * (e.a2 * e.ry - 2 * e.rx2ry + 2 * e.ca * e.rx2ry - e.a2 * e.ca * e.ry - e.a * e.rxrz * e.sa + e.a2 * e.ca * e.rxrz
  + e.a * e.rx2ry * e.sa) / e.a4 + e.py * e.rx * (e.a3 * e.sa - 2 * e.ca * e.ry2 + 2 * e.ry2 - e.a * e.ry2 * e.sa) / e.a4

/-- Entry (0, 5), covariance-inl.hpp:1547-1552. -/
noncomputable def e05 (e : Env) : ℝ :=
  e.pz * e.rx * (e.a3 * e.sa - 2 * e.ca * e.rz2 + 2 * e.rz2 - e.a * e.rz2 * e.sa) / e.a4 - e.py * (e.a3 * e.sa - e.a * e.rx2 *
  e.sa + e.a2 * e.ca * e.rx2 - 2 * e.rxryrz + 2 * e.ca * e.rxryrz + e.a * e.rxryrz * e.sa) / e.a4 - e.px * (e.a2 * e.rz - 2 *
  e.rx2rz + 2 * e.ca * e.rx2rz - e.a2 * e.ca * e.rz + e.a * e.rxry * e.sa - e.a2 * e.ca * e.rxry + e.a * e.rx2rz * e.sa) / e.a4

/-- Entry (1, 0), covariance-inl.hpp:1553-1596. -/
noncomputable def e10 (e : Env) : ℝ :=
  (2 * e.px * (e.a2 * e.rx - 2 * e.rxry2 + 2 * e.ca * e.rxry2 - e.a2 * e.ca * e.rx - e.a * e.ryrz * e.sa + e.a2 * e.ca * e.ryrz +
  e.a * e.rxry2 * e.sa) / e.a4 + 2 * e.pz * (e.a2 * e.rz - 2 * e.ry2rz + 2 * e.ca * e.ry2rz - e.a2 * e.ca * e.rz + e.a * e.rxry *
  e.sa - e.a2 * e.ca * e.rxry + e.a * e.ry2rz * e.sa) / e.a4 - 2 * e.py * e.ry * (e.a2 - e.ry2) * (2 * e.ca + e.a * e.sa - 2) /
  e.a4) * (e.rxry + e.a * e.rz * e.sa - e.ca * e.rxry) / (2 * e.a2) + (2 * e.px * (e.a3 * e.sa - e.a * e.ry2 * e.sa + e.a2 * e.ca
  * e.ry2 + 2 * e.rxryrz - 2 * e.ca * e.rxryrz - e.a * e.rxryrz * e.sa) / e.a4 - 2 * e.py * (e.a2 * e.rz - 2 * e.ry2rz + 2 * e.ca
  * e.ry2rz - e.a2 * e.ca * e.rz - e.a * e.rxry * e.sa + e.a2 * e.ca * e.rxry + e.a * e.ry2rz * e.sa) / e.a4 + 2 * e.pz * e.ry *
  (e.a3 * e.sa - 2 * e.ca * e.rz2 + 2 * e.rz2 - e.a * e.rz2 * e.sa) / e.a4) * (e.a * e.ry * e.sa - e.rxrz + e.ca * e.rxrz) / (2 *
  e.a2) + (e.a2 * e.rx - 2 * e.rxry2 + 2 * e.ca * e.rxry2 - e.a2 * e.ca * e.rx - e.a * e.ryrz * e.sa + e.a2 * e.ca * e.ryrz + e.a
  * e.rxry2 * e.sa) * (e.a2 * e.ty - e.a2 * e.qy + e.py * e.ry2 - e.ca * e.py * e.ry2 + e.px * e.rxry + e.pz * e.ryrz + e.a2 *
  e.ca * e.py + e.a * e.px * e.rz * e.sa - e.a * e.pz * e.rx * e.sa - e.ca * e.px * e.rxry - e.ca * e.pz * e.ryrz) / e.a6 - (e.a3
  * e.sa - e.a * e.ry2 * e.sa + e.a2 * e.ca * e.ry2 + 2 * e.rxryrz - 2 * e.ca * e.rxryrz - e.a * e.rxryrz * e.sa) * (e.a2 * e.tz -
  e.a2 * e.qz + e.pz * e.rz2 - e.ca * e.pz * e.rz2 + e.px * e.rxrz + e.py * e.ryrz + e.a2 * e.ca * e.pz - e.a * e.px * e.ry * e.sa
  + e.a * e.py * e.rx * e.sa - e.ca * e.px * e.rxrz - e.ca * e.py * e.ryrz) / e.a6 + (e.a2 * e.ca - e.ca * e.rx2 + e.rx2) * (2 *
  e.py * (e.a2 * e.rx - 2 * e.rxry2 + 2 * e.ca * e.rxry2 - e.a2 * e.ca * e.rx + e.a * e.ryrz * e.sa - e.a2 * e.ca * e.ryrz + e.a *
  e.rxry2 * e.sa) / e.a4 + 2 * e.pz * (e.a3 * e.sa - e.a * e.ry2 * e.sa + e.a2 * e.ca * e.ry2 - 2 * e.rxryrz + 2 * e.ca * e.rxryrz
  + e.a * e.rxryrz * e.sa) / e.a4 - 2 * e.px * e.ry * (e.a3 * e.sa - 2 * e.ca * e.rx2 + 2 * e.rx2 - e.a * e.rx2 * e.sa) / e.a4) /
  (2 * e.a2) - e.ry * (e.a3 * e.sa - 2 * e.ca * e.rx2 + 2 * e.rx2 - e.a * e.rx2 * e.sa) * (e.a2 * e.tx - e.a2 * e.qx + e.px *
  e.rx2 - e.ca * e.px * e.rx2 + e.py * e.rxry + e.pz * e.rxrz + e.a2 * e.ca * e.px - e.a * e.py * e.rz * e.sa + e.a * e.pz * e.ry
  * e.sa - e.ca * e.py * e.rxry - e.ca * e.pz * e.rxrz) / e.a6

/-- Entry (1, 1), covariance-inl.hpp:1597-1640. -/
noncomputable def e11 (e : Env) : ℝ :=
  (e.a2 * e.rx - 2 * e.rxry2 + 2 * e.ca * e.rxry2 - e.a2 * e.ca * e.rx + e.a * e.ryrz * e.sa - e.a2 * e.ca * e.ryrz + e.a *
  e.rxry2 * e.sa) * (e.a2 * e.tx - e.a2 * e.qx + e.px * e.rx2 - e.ca * e.px * e.rx2 + e.py * e.rxry + e.pz * e.rxrz + e.a2 * e.ca
  * e.px - e.a * e.py * e.rz * e.sa + e.a * e.pz * e.ry * e.sa - e.ca * e.py * e.rxry - e.ca * e.pz * e.rxrz) / e.a6 - (2 * e.px *
  (e.a3 * e.sa - e.a * e.ry2 * e.sa + e.a2 * e.ca * e.ry2 + 2 * e.rxryrz - 2 * e.ca * e.rxryrz - e.a * e.rxryrz * e.sa) / e.a4 - 2
  * e.py * (e.a2 * e.rz - 2 * e.ry2rz + 2 * e.ca * e.ry2rz - e.a2 * e.ca * e.rz - e.a * e.rxry * e.sa + e.a2 * e.ca * e.rxry + e.a
  * e.ry2rz * e.sa) / e.a4 + 2 * e.pz * e.ry * (e.a3 * e.sa - 2 * e.ca * e.rz2 + 2 * e.rz2 - e.a * e.rz2 * e.sa) / e.a4) * (e.ryrz
  + e.a * e.rx * e.sa - e.ca * e.ryrz) / (2 * e.a2) - (2 * e.py * (e.a2 * e.rx - 2 * e.rxry2 + 2 * e.ca * e.rxry2 - e.a2 * e.ca *
  e.rx + e.a * e.ryrz * e.sa - e.a2 * e.ca * e.ryrz + e.a * e.rxry2 * e.sa) / e.a4 + 2 * e.pz * (e.a3 * e.sa - e.a * e.ry2 * e.sa
  + e.a2 * e.ca * e.ry2 - 2 * e.rxryrz + 2 * e.ca * e.rxryrz + e.a * e.rxryrz * e.sa) / e.a4 - 2 * e.px * e.ry * (e.a3 * e.sa - 2
  * e.ca * e.rx2 + 2 * e.rx2 - e.a * e.rx2 * e.sa) / e.a4) * (e.a * e.rz * e.sa - e.rxry + e.ca * e.rxry) / (2 * e.a2) + (e.a2 *
  e.rz - 2 * e.ry2rz + 2 * e.ca * e.ry2rz - e.a2 * e.ca * e.rz - e.a * e.rxry * e.sa + e.a2 * e.ca * e.rxry + e.a * e.ry2rz *
  e.sa) * (e.a2 * e.tz - e.a2 * e.qz + e.pz * e.rz2 - e.ca * e.pz * e.rz2 + e.px * e.rxrz + e.py * e.ryrz + e.a2 * e.ca * e.pz -
  e.a * e.px * e.ry * e.sa + e.a * e.py * e.rx * e.sa - e.ca * e.px * e.rxrz - e.ca * e.py * e.ryrz) / e.a6 + (2 * e.px * (e.a2 *
  e.rx - 2 * e.rxry2 + 2 * e.ca * e.rxry2 - e.a2 * e.ca * e.rx - e.a * e.ryrz * e.sa + e.a2 * e.ca * e.ryrz + e.a * e.rxry2 *
  e.sa) / e.a4 + 2 * e.pz * (e.a2 * e.rz - 2 * e.ry2rz + 2 * e.ca * e.ry2rz - e.a2 * e.ca * e.rz + e.a * e.rxry * e.sa - e.a2 *
  e.ca * e.rxry + e.a * e.ry2rz * e.sa) / e.a4 - 2 * e.py * e.ry * (e.a2 - e.ry2) * (2 * e.ca + e.a * e.sa - 2) / e.a4) * (e.a2 *
  e.ca - e.ca * e.ry2 + e.ry2) / (2 * e.a2) - e.ry * (e.a2 - e.ry2) * (2 * e.ca + e.a * e.sa - 2) * (e.a2 * e.ty - e.a2 * e.qy +
  e.py * e.ry2 - e.ca * e.py * e.ry2 + e.px * e.rxry + e.pz * e.ryrz + e.a2 * e.ca * e.py + e.a * e.px * e.rz * e.sa - e.a * e.pz
  * e.rx * e.sa - e.ca * e.px * e.rxry - e.ca * e.pz * e.ryrz) / e.a6

/-- Entry (1, 2), covariance-inl.hpp:1641-1686. -/
noncomputable def e12 (e : Env) : ℝ :=
  (2 * e.py * (e.a2 * e.rx - 2 * e.rxry2 + 2 * e.ca * e.rxry2 - e.a2 * e.ca * e.rx + e.a * e.ryrz * e.sa - e.a2 * e.ca * e.ryrz +
  e.a * e.rxry2 * e.sa) / e.a4 + 2 * e.pz * (e.a3 * e.sa - e.a * e.ry2 * e.sa + e.a2 * e.ca * e.ry2 - 2 * e.rxryrz + 2 * e.ca *
  e.rxryrz + e.a * e.rxryrz * e.sa) / e.a4 - 2 * e.px * e.ry * (e.a3 * e.sa - 2 * e.ca * e.rx2 + 2 * e.rx2 - e.a * e.rx2 * e.sa) /
  e.a4) * (e.rxrz + e.a * e.ry * e.sa - e.ca * e.rxrz) / (2 * e.a2) - (2 * e.px * (e.a2 * e.rx - 2 * e.rxry2 + 2 * e.ca * e.rxry2
  - e.a2 * e.ca * e.rx - e.a * e.ryrz * e.sa + e.a2 * e.ca * e.ryrz + e.a * e.rxry2 * e.sa) / e.a4 + 2 * e.pz * (e.a2 * e.rz - 2 *
  e.ry2rz + 2 * e.ca * e.ry2rz - e.a2 * e.ca * e.rz + e.a * e.rxry * e.sa - e.a2 * e.ca * e.rxry + e.a * e.ry2rz * e.sa) / e.a4 -
  2 * e.py * e.ry * (e.a2 - e.ry2) * (2 * e.ca + e.a * e.sa - 2) / e.a4) * (e.a * e.rx * e.sa - e.ryrz + e.ca * e.ryrz) / (2 *
  e.a2) + (e.a2 * e.rz - 2 * e.ry2rz + 2 * e.ca * e.ry2rz - e.a2 * e.ca * e.rz + e.a * e.rxry * e.sa - e.a2 * e.ca * e.rxry + e.a
  * e.ry2rz * e.sa) * (e.a2 * e.ty - e.a2 * e.qy + e.py * e.ry2 - e.ca * e.py * e.ry2 + e.px * e.rxry + e.pz * e.ryrz + e.a2 *
  e.ca * e.py + e.a * e.px * e.rz * e.sa - e.a * e.pz * e.rx * e.sa - e.ca * e.px * e.rxry - e.ca * e.pz * e.ryrz) / e.a6 + (e.a3
  * e.sa - e.a * e.ry2 * e.sa + e.a2 * e.ca * e.ry2 - 2 * e.rxryrz + 2 * e.ca * e.rxryrz + e.a * e.rxryrz * e.sa) * (e.a2 * e.tx -
  e.a2 * e.qx + e.px * e.rx2 - e.ca * e.px * e.rx2 + e.py * e.rxry + e.pz * e.rxrz + e.a2 * e.ca * e.px - e.a * e.py * e.rz * e.sa
  + e.a * e.pz * e.ry * e.sa - e.ca * e.py * e.rxry - e.ca * e.pz * e.rxrz) / e.a6 - (e.a2 * e.ca - e.ca * e.rz2 + e.rz2) * (2 *
  e.px * (e.a3 * e.sa - e.a * e.ry2 * e.sa + e.a2 * e.ca * e.ry2 + 2 * e.rxryrz - 2 * e.ca * e.rxryrz - e.a * e.rxryrz * e.sa) /
  e.a4 - 2 * e.py * (e.a2 * e.rz - 2 * e.ry2rz + 2 * e.ca * e.ry2rz - e.a2 * e.ca * e.rz - e.a * e.rxry * e.sa + e.a2 * e.ca *
  e.rxry + e.a * e.ry2rz * e.sa) / e.a4 + 2 * e.pz * e.ry * (e.a3 * e.sa - 2 * e.ca * e.rz2 + 2 * e.rz2 - e.a * e.rz2 * e.sa) /
  e.a4) / (2 * e.a2) - e.ry * (e.a3 * e.sa - 2 * e.ca * e.rz2 + 2 * e.rz2 - e.a * e.rz2 * e.sa) * (e.a2 * e.tz - e.a2 * e.qz +
  e.pz * e.rz2 - e.ca * e.pz * e.rz2 + e.px * e.rxrz + e.py * e.ryrz + e.a2 * e.ca * e.pz - e.a * e.px * e.ry * e.sa + e.a * e.py
  * e.rx * e.sa - e.ca * e.px * e.rxrz - e.ca * e.py * e.ryrz) / e.a6

/-- Entry (1, 3), covariance-inl.hpp:1687-1692. -/
noncomputable def e13 (e : Env) : ℝ :=
  e.px * e.ry * (e.a3 * e.sa - 2 * e.ca * e.rx2 + 2 * e.rx2 - e.a * e.rx2 * e.sa) / e.a4 - e.pz * (e.a3 * e.sa - e.a * e.ry2 *
  e.sa + e.a2 * e.ca * e.ry2 - 2 * e.rxryrz + 2 * e.ca * e.rxryrz + e.a * e.rxryrz * e.sa) / e.a4 - e.py * (e.a2 * e.rx - 2 *
  e.rxry2 + 2 * e.ca * e.rxry2 - e.a2 * e.ca * e.rx + e.a * e.ryrz * e.sa - e.a2 * e.ca * e.ryrz + e.a * e.rxry2 * e.sa) / e.a4

/-- Entry (1, 4), covariance-inl.hpp:1693-1699. -/
noncomputable def e14 (e : Env) : ℝ :=
  e.py * e.ry * (e.a2 - e.ry2) * (2 * e.ca + e.a * e.sa - 2) / e.a4 - e.pz * (e.a2 * e.rz - 2 * e.ry2rz + 2 * e.ca * e.ry2rz -
  e.a2 * e.ca * e.rz + e.a * e.rxry * e.sa - e.a2 * e.ca * e.rxry + e.a * e.ry2rz * e.sa) / e.a4 - e.px * (e.a2 * e.rx - 2 *
  e.rxry2 + 2 * e.ca * e.rxry2 - e.a2 * e.ca * e.rx - e.a * e.ryrz * e.sa + e.a2 * e.ca * e.ryrz + e.a * e.rxry2 * e.sa) / e.a4

/-- Entry (1, 5), covariance-inl.hpp:1700-1705. -/
noncomputable def e15 (e : Env) : ℝ :=
  e.px * (e.a3 * e.sa - e.a * e.ry2 * e.sa + e.a2 * e.ca * e.ry2 + 2 * e.rxryrz - 2 * e.ca * e.rxryrz - e.a * e.rxryrz * e.sa) /
  e.a4 - e.py * (e.a2 * e.rz - 2 * e.ry2rz + 2 * e.ca * e.ry2rz - e.a2 * e.ca * e.rz - e.a * e.rxry * e.sa + e.a2 * e.ca * e.rxry
  + e.a * e.ry2rz * e.sa) / e.a4 + e.pz * e.ry * (e.a3 * e.sa - 2 * e.ca * e.rz2 + 2 * e.rz2 - e.a * e.rz2 * e.sa) / e.a4

/-- Entry (2, 0), covariance-inl.hpp:1706-1751. -/
noncomputable def e20 (e : Env) : ℝ :=
  (2 * e.pz * (e.a2 * e.ry - 2 * e.ryrz2 + 2 * e.ca * e.ryrz2 - e.a2 * e.ca * e.ry + e.a * e.rxrz * e.sa - e.a2 * e.ca * e.rxrz +
  e.a * e.ryrz2 * e.sa) / e.a4 + 2 * e.px * (e.a3 * e.sa - e.a * e.rz2 * e.sa + e.a2 * e.ca * e.rz2 - 2 * e.rxryrz + 2 * e.ca *
  e.rxryrz + e.a * e.rxryrz * e.sa) / e.a4 - 2 * e.py * e.rz * (e.a3 * e.sa - 2 * e.ca * e.ry2 + 2 * e.ry2 - e.a * e.ry2 * e.sa) /
  e.a4) * (e.rxry + e.a * e.rz * e.sa - e.ca * e.rxry) / (2 * e.a2) - (2 * e.px * (e.a2 * e.rx - 2 * e.rxrz2 + 2 * e.ca * e.rxrz2
  - e.a2 * e.ca * e.rx + e.a * e.ryrz * e.sa - e.a2 * e.ca * e.ryrz + e.a * e.rxrz2 * e.sa) / e.a4 + 2 * e.py * (e.a2 * e.ry - 2 *
  e.ryrz2 + 2 * e.ca * e.ryrz2 - e.a2 * e.ca * e.ry - e.a * e.rxrz * e.sa + e.a2 * e.ca * e.rxrz + e.a * e.ryrz2 * e.sa) / e.a4 -
  2 * e.pz * e.rz * (e.a2 - e.rz2) * (2 * e.ca + e.a * e.sa - 2) / e.a4) * (e.a * e.ry * e.sa - e.rxrz + e.ca * e.rxrz) / (2 *
  e.a2) + (e.a2 * e.rx - 2 * e.rxrz2 + 2 * e.ca * e.rxrz2 - e.a2 * e.ca * e.rx + e.a * e.ryrz * e.sa - e.a2 * e.ca * e.ryrz + e.a
  * e.rxrz2 * e.sa) * (e.a2 * e.tz - e.a2 * e.qz + e.pz * e.rz2 - e.ca * e.pz * e.rz2 + e.px * e.rxrz + e.py * e.ryrz + e.a2 *
  e.ca * e.pz - e.a * e.px * e.ry * e.sa + e.a * e.py * e.rx * e.sa - e.ca * e.px * e.rxrz - e.ca * e.py * e.ryrz) / e.a6 + (e.a3
  * e.sa - e.a * e.rz2 * e.sa + e.a2 * e.ca * e.rz2 - 2 * e.rxryrz + 2 * e.ca * e.rxryrz + e.a * e.rxryrz * e.sa) * (e.a2 * e.ty -
  e.a2 * e.qy + e.py * e.ry2 - e.ca * e.py * e.ry2 + e.px * e.rxry + e.pz * e.ryrz + e.a2 * e.ca * e.py + e.a * e.px * e.rz * e.sa
  - e.a * e.pz * e.rx * e.sa - e.ca * e.px * e.rxry - e.ca * e.pz * e.ryrz) / e.a6 - (e.a2 * e.ca - e.ca * e.rx2 + e.rx2) * (2 *
  e.py * (e.a3 * e.sa - e.a * e.rz2 * e.sa + e.a2 * e.ca * e.rz2 + 2 * e.rxryrz - 2 * e.ca * e.rxryrz - e.a * e.rxryrz * e.sa) /
  e.a4 - 2 * e.pz * (e.a2 * e.rx - 2 * e.rxrz2 + 2 * e.ca * e.rxrz2 - e.a2 * e.ca * e.rx - e.a * e.ryrz * e.sa + e.a2 * e.ca *
  e.ryrz + e.a * e.rxrz2 * e.sa) / e.a4 + 2 * e.px * e.rz * (e.a3 * e.sa - 2 * e.ca * e.rx2 + 2 * e.rx2 - e.a * e.rx2 * e.sa) /
  e.a4) / (2 * e.a2) - e.rz * (e.a3 * e.sa - 2 * e.ca * e.rx2 + 2 * e.rx2 - e.a * e.rx2 * e.sa) * (e.a2 * e.tx - e.a2 * e.qx +
  e.px * e.rx2 - e.ca * e.px * e.rx2 + e.py * e.rxry + e.pz * e.rxrz + e.a2 * e.ca * e.px - e.a * e.py * e.rz * e.sa + e.a * e.pz
  * e.ry * e.sa - e.ca * e.py * e.rxry - e.ca * e.pz * e.rxrz) / e.a6

/-- Entry (2, 1), covariance-inl.hpp:1752-1795. -/
noncomputable def e21 (e : Env) : ℝ :=
  (2 * e.px * (e.a2 * e.rx - 2 * e.rxrz2 + 2 * e.ca * e.rxrz2 - e.a2 * e.ca * e.rx + e.a * e.ryrz * e.sa - e.a2 * e.ca * e.ryrz +
  e.a * e.rxrz2 * e.sa) / e.a4 + 2 * e.py * (e.a2 * e.ry - 2 * e.ryrz2 + 2 * e.ca * e.ryrz2 - e.a2 * e.ca * e.ry - e.a * e.rxrz *
  e.sa + e.a2 * e.ca * e.rxrz + e.a * e.ryrz2 * e.sa) / e.a4 - 2 * e.pz * e.rz * (e.a2 - e.rz2) * (2 * e.ca + e.a * e.sa - 2) /
  e.a4) * (e.ryrz + e.a * e.rx * e.sa - e.ca * e.ryrz) / (2 * e.a2) + (2 * e.py * (e.a3 * e.sa - e.a * e.rz2 * e.sa + e.a2 * e.ca
  * e.rz2 + 2 * e.rxryrz - 2 * e.ca * e.rxryrz - e.a * e.rxryrz * e.sa) / e.a4 - 2 * e.pz * (e.a2 * e.rx - 2 * e.rxrz2 + 2 * e.ca
  * e.rxrz2 - e.a2 * e.ca * e.rx - e.a * e.ryrz * e.sa + e.a2 * e.ca * e.ryrz + e.a * e.rxrz2 * e.sa) / e.a4 + 2 * e.px * e.rz *
  (e.a3 * e.sa - 2 * e.ca * e.rx2 + 2 * e.rx2 - e.a * e.rx2 * e.sa) / e.a4) * (e.a * e.rz * e.sa - e.rxry + e.ca * e.rxry) / (2 *
  e.a2) + (e.a2 * e.ry - 2 * e.ryrz2 + 2 * e.ca * e.ryrz2 - e.a2 * e.ca * e.ry - e.a * e.rxrz * e.sa + e.a2 * e.ca * e.rxrz + e.a
  * e.ryrz2 * e.sa) * (e.a2 * e.tz - e.a2 * e.qz + e.pz * e.rz2 - e.ca * e.pz * e.rz2 + e.px * e.rxrz + e.py * e.ryrz + e.a2 *
  e.ca * e.pz - e.a * e.px * e.ry * e.sa + e.a * e.py * e.rx * e.sa - e.ca * e.px * e.rxrz - e.ca * e.py * e.ryrz) / e.a6 - (e.a3
  * e.sa - e.a * e.rz2 * e.sa + e.a2 * e.ca * e.rz2 + 2 * e.rxryrz - 2 * e.ca * e.rxryrz - e.a * e.rxryrz * e.sa) * (e.a2 * e.tx -
  e.a2 * e.qx + e.px * e.rx2 - e.ca * e.px * e.rx2 + e.py * e.rxry + e.pz * e.rxrz + e.a2 * e.ca * e.px - e.a * e.py * e.rz * e.sa
  + e.a * e.pz * e.ry * e.sa - e.ca * e.py * e.rxry - e.ca * e.pz * e.rxrz) / e.a6 + (e.a2 * e.ca - e.ca * e.ry2 + e.ry2) * (2 *
  e.pz * (e.a2 * e.ry - 2 * e.ryrz2 + 2 * e.ca * e.ryrz2 - e.a2 * e.ca * e.ry + e.a * e.rxrz * e.sa - e.a2 * e.ca * e.rxrz + e.a *
  e.ryrz2 * e.sa) / e.a4 + 2 * e.px * (e.a3 * e.sa - e.a * e.rz2 * e.sa + e.a2 * e.ca * e.rz2 - 2 * e.rxryrz + 2 * e.ca * e.rxryrz
  + e.a * e.rxryrz * e.sa) / e.a4 - 2 * e.py * e.rz * (e.a3 * e.sa - 2 * e.ca * e.ry2 + 2 * e.ry2 - e.a * e.ry2 * e.sa) / e.a4) /
  (2 * e.a2) - e.rz * (e.a3 * e.sa - 2 * e.ca * e.ry2 + 2 * e.ry2 - e.a * e.ry2 * e.sa) * (e.a2 * e.ty - e.a2 * e.qy + e.py *
  e.ry2 - e.ca * e.py * e.ry2 + e.px * e.rxry + e.pz * e.ryrz + e.a2 * e.ca * e.py + e.a * e.px * e.rz * e.sa - e.a * e.pz * e.rx
  * e.sa - e.ca * e.px * e.rxry - e.ca * e.pz * e.ryrz) / e.a6

/-- Entry (2, 2), covariance-inl.hpp:1796-1839. -/
noncomputable def e22 (e : Env) : ℝ :=
  (e.a2 * e.rx - 2 * e.rxrz2 + 2 * e.ca * e.rxrz2 - e.a2 * e.ca * e.rx - e.a * e.ryrz * e.sa + e.a2 * e.ca * e.ryrz + e.a *
  e.rxrz2 * e.sa) * (e.a2 * e.tx - e.a2 * e.qx + e.px * e.rx2 - e.ca * e.px * e.rx2 + e.py * e.rxry + e.pz * e.rxrz + e.a2 * e.ca
  * e.px - e.a * e.py * e.rz * e.sa + e.a * e.pz * e.ry * e.sa - e.ca * e.py * e.rxry - e.ca * e.pz * e.rxrz) / e.a6 - (2 * e.pz *
  (e.a2 * e.ry - 2 * e.ryrz2 + 2 * e.ca * e.ryrz2 - e.a2 * e.ca * e.ry + e.a * e.rxrz * e.sa - e.a2 * e.ca * e.rxrz + e.a *
  e.ryrz2 * e.sa) / e.a4 + 2 * e.px * (e.a3 * e.sa - e.a * e.rz2 * e.sa + e.a2 * e.ca * e.rz2 - 2 * e.rxryrz + 2 * e.ca * e.rxryrz
  + e.a * e.rxryrz * e.sa) / e.a4 - 2 * e.py * e.rz * (e.a3 * e.sa - 2 * e.ca * e.ry2 + 2 * e.ry2 - e.a * e.ry2 * e.sa) / e.a4) *
  (e.a * e.rx * e.sa - e.ryrz + e.ca * e.ryrz) / (2 * e.a2) - (2 * e.py * (e.a3 * e.sa - e.a * e.rz2 * e.sa + e.a2 * e.ca * e.rz2
  + 2 * e.rxryrz - 2 * e.ca * e.rxryrz - e.a * e.rxryrz * e.sa) / e.a4 - 2 * e.pz * (e.a2 * e.rx - 2 * e.rxrz2 + 2 * e.ca *
  e.rxrz2 - e.a2 * e.ca * e.rx - e.a * e.ryrz * e.sa + e.a2 * e.ca * e.ryrz + e.a * e.rxrz2 * e.sa) / e.a4 + 2 * e.px * e.rz *
  (e.a3 * e.sa - 2 * e.ca * e.rx2 + 2 * e.rx2 - e.a * e.rx2 * e.sa) / e.a4) * (e.rxrz + e.a * e.ry * e.sa - e.ca * e.rxrz) / (2 *
  e.a2) + (e.a2 * e.ry - 2 * e.ryrz2 + 2 * e.ca * e.ryrz2 - e.a2 * e.ca * e.ry + e.a * e.rxrz * e.sa - e.a2 * e.ca * e.rxrz + e.a
  * e.ryrz2 * e.sa) * (e.a2 * e.ty - e.a2 * e.qy + e.py * e.ry2 - e.ca * e.py * e.ry2 + e.px * e.rxry + e.pz * e.ryrz + e.a2 *
  e.ca * e.py + e.a * e.px * e.rz * e.sa - e.a * e.pz * e.rx * e.sa - e.ca * e.px * e.rxry - e.ca * e.pz * e.ryrz) / e.a6 + (2 *
  e.px * (e.a2 * e.rx - 2 * e.rxrz2 + 2 * e.ca * e.rxrz2 - e.a2 * e.ca * e.rx + e.a * e.ryrz * e.sa - e.a2 * e.ca * e.ryrz + e.a *
  e.rxrz2 * e.sa) / e.a4 + 2 * e.py * (e.a2 * e.ry - 2 * e.ryrz2 + 2 * e.ca * e.ryrz2 - e.a2 * e.ca * e.ry - e.a * e.rxrz * e.sa +
  e.a2 * e.ca * e.rxrz + e.a * e.ryrz2 * e.sa) / e.a4 - 2 * e.pz * e.rz * (e.a2 - e.rz2) * (2 * e.ca + e.a * e.sa - 2) / e.a4) *
  (e.a2 * e.ca - e.ca * e.rz2 + e.rz2) / (2 * e.a2) - e.rz * (e.a2 - e.rz2) * (2 * e.ca + e.a * e.sa - 2) * (e.a2 * e.tz - e.a2 *
  e.qz + e.pz * e.rz2 - e.ca * e.pz * e.rz2 + e.px * e.rxrz + e.py * e.ryrz + e.a2 * e.ca * e.pz - e.a * e.px * e.ry * e.sa + e.a
  * e.py * e.rx * e.sa - e.ca * e.px * e.rxrz - e.ca * e.py * e.ryrz) / e.a6

/-- Entry (2, 3), covariance-inl.hpp:1840-1845. -/
noncomputable def e23 (e : Env) : ℝ :=
  e.py * (e.a3 * e.sa - e.a * e.rz2 * e.sa + e.a2 * e.ca * e.rz2 + 2 * e.rxryrz - 2 * e.ca * e.rxryrz - e.a * e.rxryrz * e.sa) /
  e.a4 - e.pz * (e.a2 * e.rx - 2 * e.rxrz2 + 2 * e.ca * e.rxrz2 - e.a2 * e.ca * e.rx - e.a * e.ryrz * e.sa + e.a2 * e.ca * e.ryrz
  + e.a * e.rxrz2 * e.sa) / e.a4 + e.px * e.rz * (e.a3 * e.sa - 2 * e.ca * e.rx2 + 2 * e.rx2 - e.a * e.rx2 * e.sa) / e.a4

/-- Entry (2, 4), covariance-inl.hpp:1846-1851. -/
noncomputable def e24 (e : Env) : ℝ :=
  e.py * e.rz * (e.a3 * e.sa - 2 * e.ca * e.ry2 + 2 * e.ry2 - e.a * e.ry2 * e.sa) / e.a4 - e.px * (e.a3 * e.sa - e.a * e.rz2 *
  e.sa + e.a2 * e.ca * e.rz2 - 2 * e.rxryrz + 2 * e.ca * e.rxryrz + e.a * e.rxryrz * e.sa) / e.a4 - e.pz * (e.a2 * e.ry - 2 *
  e.ryrz2 + 2 * e.ca * e.ryrz2 - e.a2 * e.ca * e.ry + e.a * e.rxrz * e.sa - e.a2 * e.ca * e.rxrz + e.a * e.ryrz2 * e.sa) / e.a4

/-- Entry (2, 5), covariance-inl.hpp:1852-1858. -/
noncomputable def e25 (e : Env) : ℝ :=
  e.pz * e.rz * (e.a2 - e.rz2) * (2 * e.ca + e.a * e.sa - 2) / e.a4 - e.py * (e.a2 * e.ry - 2 * e.ryrz2 + 2 * e.ca * e.ryrz2 -
  e.a2 * e.ca * e.ry - e.a * e.rxrz * e.sa + e.a2 * e.ca * e.rxrz + e.a * e.ryrz2 * e.sa) / e.a4 - e.px * (e.a2 * e.rx - 2 *
  e.rxrz2 + 2 * e.ca * e.rxrz2 - e.a2 * e.ca * e.rx + e.a * e.ryrz * e.sa - e.a2 * e.ca * e.ryrz + e.a * e.rxrz2 * e.sa) / e.a4

/-- Entry (3, 0), covariance-inl.hpp:1859-1859. -/
noncomputable def e30 (e : Env) : ℝ :=
  e.ca - e.rx2 * e.cam1 / e.a2

/-- Entry (3, 1), covariance-inl.hpp:1860-1860. -/
noncomputable def e31 (e : Env) : ℝ :=
  -(e.rz * e.sa) / e.a - e.rxry * e.cam1 / e.a2

/-- Entry (3, 2), covariance-inl.hpp:1861-1861. -/
noncomputable def e32 (e : Env) : ℝ :=
  e.ry * e.sa / e.a - e.rxrz * e.cam1 / e.a2

/-- Entry (3, 3), covariance-inl.hpp:1862. -/
noncomputable def e33 (_ : Env) : ℝ := -1

/-- Entry (3, 4), covariance-inl.hpp:1863. -/
noncomputable def e34 (_ : Env) : ℝ := 0

/-- Entry (3, 5), covariance-inl.hpp:1864. -/
noncomputable def e35 (_ : Env) : ℝ := 0

/-- Entry (4, 0), covariance-inl.hpp:1865-1865. -/
noncomputable def e40 (e : Env) : ℝ :=
  e.rz * e.sa / e.a - e.rxry * e.cam1 / e.a2

/-- Entry (4, 1), covariance-inl.hpp:1866-1866. -/
noncomputable def e41 (e : Env) : ℝ :=
  e.ca - e.ry2 * e.cam1 / e.a2

/-- Entry (4, 2), covariance-inl.hpp:1867-1867. -/
noncomputable def e42 (e : Env) : ℝ :=
  -(e.rx * e.sa) / e.a - e.ryrz * e.cam1 / e.a2

/-- Entry (4, 3), covariance-inl.hpp:1868. -/
noncomputable def e43 (_ : Env) : ℝ := 0

/-- Entry (4, 4), covariance-inl.hpp:1869. -/
noncomputable def e44 (_ : Env) : ℝ := -1

/-- Entry (4, 5), covariance-inl.hpp:1870. -/
noncomputable def e45 (_ : Env) : ℝ := 0

/-- Entry (5, 0), covariance-inl.hpp:1871-1871. -/
noncomputable def e50 (e : Env) : ℝ :=
  -(e.ry * e.sa) / e.a - e.rxrz * e.cam1 / e.a2

/-- Entry (5, 1), covariance-inl.hpp:1872-1872. -/
noncomputable def e51 (e : Env) : ℝ :=
  e.rx * e.sa / e.a - e.ryrz * e.cam1 / e.a2

/-- Entry (5, 2), covariance-inl.hpp:1873-1873. -/
noncomputable def e52 (e : Env) : ℝ :=
  e.ca - e.rz2 * e.cam1 / e.a2

/-- Entry (5, 3), covariance-inl.hpp:1874. -/
noncomputable def e53 (_ : Env) : ℝ := 0

/-- Entry (5, 4), covariance-inl.hpp:1875. -/
noncomputable def e54 (_ : Env) : ℝ := 0

/-- Entry (5, 5), covariance-inl.hpp:1876. -/
noncomputable def e55 (_ : Env) : ℝ := -1

/-- The matrix, covariance-inl.hpp:1355-1878. -/
noncomputable def matrix (e : Env) : Mat6 ℝ :=
  fromBlocks (of ![![e00 e, e01 e, e02 e], ![e10 e, e11 e, e12 e], ![e20 e, e21 e, e22 e]])
    (of ![![e03 e, e04 e, e05 e], ![e13 e, e14 e, e15 e], ![e23 e, e24 e, e25 e]])
    (of ![![e30 e, e31 e, e32 e], ![e40 e, e41 e, e42 e], ![e50 e, e51 e, e52 e]])
    (of ![![e33 e, e34 e, e35 e], ![e43 e, e44 e, e45 e], ![e53 e, e54 e, e55 e]])

end PointDzdx

end Lidar

end Serpent
