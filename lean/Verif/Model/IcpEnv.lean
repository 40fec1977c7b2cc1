import Verif.Model.RegistrationCovariance

/-!
# Model of the nonlinear ICP models: named values

serpent/include/serpent/front_end/lidar/registration_covariance-inl.hpp ("covariance-inl.hpp"). The four functions name the same
values and products in the same way, so they are named once; the functions of the point-to-point model do not use the normal. This
file and the four files of the functions were transcribed by a script from the statements of the source: one field or definition for
each statement.
-/

namespace Serpent

namespace Lidar

open EigenExt

/-- The aliases, covariance-inl.hpp:283-294 and 1926-1928. -/
structure Env where
  /-- tf.r()[0], line 283 -/
  rx : ℝ
  /-- tf.r()[1], line 284 -/
  ry : ℝ
  /-- tf.r()[2], line 285 -/
  rz : ℝ
  /-- tf.t()[0], line 286 -/
  tx : ℝ
  /-- tf.t()[1], line 287 -/
  ty : ℝ
  /-- tf.t()[2], line 288 -/
  tz : ℝ
  /-- p[0], line 289 -/
  px : ℝ
  /-- p[1], line 290 -/
  py : ℝ
  /-- p[2], line 291 -/
  pz : ℝ
  /-- q[0], line 292 -/
  qx : ℝ
  /-- q[1], line 293 -/
  qy : ℝ
  /-- q[2], line 294 -/
  qz : ℝ
  /-- tf.a(), line 323 -/
  a : ℝ
  /-- tf.cosa(), line 329 -/
  ca : ℝ
  /-- tf.sina(), line 330 -/
  sa : ℝ
  /-- n[0], line 1926 -/
  nx : ℝ
  /-- n[1], line 1927 -/
  ny : ℝ
  /-- n[2], line 1928 -/
  nz : ℝ

/-- Their values. Variables of registration_covariance-inl.hpp. -/
def env (tf : Components) (p q n : Fin 3 → ℝ) : Env where
  rx := tf.r 0
  ry := tf.r 1
  rz := tf.r 2
  tx := tf.t 0
  ty := tf.t 1
  tz := tf.t 2
  px := p 0
  py := p 1
  pz := p 2
  qx := q 0
  qy := q 1
  qz := q 2
  a := tf.a
  ca := tf.cosa
  sa := tf.sina
  nx := n 0
  ny := n 1
  nz := n 2

variable (e : Env)

/-- covariance-inl.hpp:295. -/
noncomputable def Env.rx2ryrz : ℝ := e.rx * e.rx * e.ry * e.rz

/-- covariance-inl.hpp:296. -/
noncomputable def Env.rxry2rz : ℝ := e.rx * e.ry * e.ry * e.rz

/-- covariance-inl.hpp:297. -/
noncomputable def Env.rxryrz2 : ℝ := e.rx * e.ry * e.rz * e.rz

/-- covariance-inl.hpp:298. -/
noncomputable def Env.rx2ry2 : ℝ := e.rx * e.rx * e.ry * e.ry

/-- covariance-inl.hpp:299. -/
noncomputable def Env.rx2rz2 : ℝ := e.rx * e.rx * e.rz * e.rz

/-- covariance-inl.hpp:300. -/
noncomputable def Env.ry2rz2 : ℝ := e.ry * e.ry * e.rz * e.rz

/-- covariance-inl.hpp:301. -/
noncomputable def Env.rx3ry : ℝ := e.rx * e.rx * e.rx * e.ry

/-- covariance-inl.hpp:302. -/
noncomputable def Env.rx3rz : ℝ := e.rx * e.rx * e.rx * e.rz

/-- covariance-inl.hpp:303. -/
noncomputable def Env.rxry3 : ℝ := e.rx * e.ry * e.ry * e.ry

/-- covariance-inl.hpp:304. -/
noncomputable def Env.ry3rz : ℝ := e.ry * e.ry * e.ry * e.rz

/-- covariance-inl.hpp:305. -/
noncomputable def Env.rxrz3 : ℝ := e.rx * e.rz * e.rz * e.rz

/-- covariance-inl.hpp:306. -/
noncomputable def Env.ryrz3 : ℝ := e.ry * e.rz * e.rz * e.rz

/-- covariance-inl.hpp:307. -/
noncomputable def Env.rx2ry : ℝ := e.rx * e.rx * e.ry

/-- covariance-inl.hpp:308. -/
noncomputable def Env.rx2rz : ℝ := e.rx * e.rx * e.rz

/-- covariance-inl.hpp:309. -/
noncomputable def Env.rxry2 : ℝ := e.rx * e.ry * e.ry

/-- covariance-inl.hpp:310. -/
noncomputable def Env.ry2rz : ℝ := e.ry * e.ry * e.rz

/-- covariance-inl.hpp:311. -/
noncomputable def Env.rxrz2 : ℝ := e.rx * e.rz * e.rz

/-- covariance-inl.hpp:312. -/
noncomputable def Env.ryrz2 : ℝ := e.ry * e.rz * e.rz

/-- covariance-inl.hpp:313. -/
noncomputable def Env.rxryrz : ℝ := e.rx * e.ry * e.rz

/-- covariance-inl.hpp:314. -/
noncomputable def Env.rx3 : ℝ := e.rx * e.rx * e.rx

/-- covariance-inl.hpp:315. -/
noncomputable def Env.ry3 : ℝ := e.ry * e.ry * e.ry

/-- covariance-inl.hpp:316. -/
noncomputable def Env.rz3 : ℝ := e.rz * e.rz * e.rz

/-- covariance-inl.hpp:317. -/
noncomputable def Env.rx2 : ℝ := e.rx * e.rx

/-- covariance-inl.hpp:318. -/
noncomputable def Env.ry2 : ℝ := e.ry * e.ry

/-- covariance-inl.hpp:319. -/
noncomputable def Env.rz2 : ℝ := e.rz * e.rz

/-- covariance-inl.hpp:320. -/
noncomputable def Env.rxry : ℝ := e.rx * e.ry

/-- covariance-inl.hpp:321. -/
noncomputable def Env.rxrz : ℝ := e.rx * e.rz

/-- covariance-inl.hpp:322. -/
noncomputable def Env.ryrz : ℝ := e.ry * e.rz

/-- covariance-inl.hpp:324. -/
noncomputable def Env.a2 : ℝ := e.a * e.a

/-- covariance-inl.hpp:325. -/
noncomputable def Env.a3 : ℝ := e.a2 * e.a

/-- covariance-inl.hpp:326. -/
noncomputable def Env.a4 : ℝ := e.a3 * e.a

/-- covariance-inl.hpp:327. -/
noncomputable def Env.a5 : ℝ := e.a4 * e.a

/-- covariance-inl.hpp:328. -/
noncomputable def Env.a6 : ℝ := e.a5 * e.a

/-- covariance-inl.hpp:331. -/
noncomputable def Env.cam1 : ℝ := e.ca - 1

/-- covariance-inl.hpp:1941. -/
noncomputable def Env.rx4 : ℝ := e.rx * e.rx * e.rx * e.rx

/-- covariance-inl.hpp:1942. -/
noncomputable def Env.ry4 : ℝ := e.ry * e.ry * e.ry * e.ry

/-- covariance-inl.hpp:1943. -/
noncomputable def Env.rz4 : ℝ := e.rz * e.rz * e.rz * e.rz

/-- covariance-inl.hpp:1969. -/
noncomputable def Env.nx2 : ℝ := e.nx * e.nx

/-- covariance-inl.hpp:1970. -/
noncomputable def Env.ny2 : ℝ := e.ny * e.ny

/-- covariance-inl.hpp:1971. -/
noncomputable def Env.nz2 : ℝ := e.nz * e.nz

/-- covariance-inl.hpp:1972. -/
noncomputable def Env.nxny : ℝ := e.nx * e.ny

/-- covariance-inl.hpp:1973. -/
noncomputable def Env.nynz : ℝ := e.ny * e.nz

/-- covariance-inl.hpp:1974. -/
noncomputable def Env.nxnz : ℝ := e.nx * e.nz

end Lidar

end Serpent
