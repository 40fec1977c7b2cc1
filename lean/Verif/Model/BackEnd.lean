import Verif.Model.GraphManager
import Verif.Basic.Division
import Mathlib.Data.Rat.Init
import Mathlib.Algebra.Order.Field.Rat

/-!
# Model of the back end (`Optimisation`)

Source: `serpent/src/back_end/optimisation.cpp` and `protected_sleep` of `serpent/src/utils/utilities.cpp`.

Simplifications (apply to the whole file):
* The numerical work (preintegration, prediction, pose composition, noise models) is an arbitrary record of functions
  `Api`; operations of it that can throw return an `Outcome`.
* Message numbers are rationals, time stamps are integers (nanoseconds).
* Logging is modelled only where the logged expression can throw.
* `graph_mutex` is the flag `locked`: it says whether the callback being run holds the mutex. What other threads do while
  a callback sleeps is an arbitrary function on the state.
* Publishing appends to the list `published`. `calls` is a ghost record of the calls of `gm->optimise`.
-/

namespace Serpent

namespace BackEnd

open Graph

/-! ### Stereo feature messages -/

/-- `serpent::StereoFeature` message. Source: StereoFeature.msg:1-8. -/
structure Feature where
  id : Int
  leftX : ℚ
  leftY : ℚ
  rightX : ℚ
  rightY : ℚ
deriving DecidableEq

/-- `gtsam::StereoPoint2`. Created in optimisation.cpp:22. -/
structure StereoPoint where
  uL : ℚ
  uR : ℚ
  v : ℚ
deriving DecidableEq

/-- Loop of optimisation.cpp:19-26; `acc` is the map being filled. -/
def fromRosLoop : List Feature → OMap Int StereoPoint → Outcome (OMap Int StereoPoint)
  | [], acc => .ok acc
  | f :: rest, acc =>
    if acc.contains f.id then .throws
    else fromRosLoop rest (acc.emplace f.id { uL := f.leftX, uR := f.rightX, v := (f.leftY + f.rightY) / 2 })

/-- `from_ros(features, map)` into an empty map, optimisation.cpp:19-26 and 331-332. -/
def fromRos (fs : List Feature) : Outcome (OMap Int StereoPoint) := fromRosLoop fs []

/-! ### Messages -/

/-- `nav_msgs::Odometry` (initial odometry): stamp, pose, velocity, pose and velocity covariance. The argument of
optimisation.cpp:474, read in 476-484. -/
structure OdomMsg (Val C : Type) where
  stamp : Int
  pose : Val
  velocity : Val
  poseCov : C
  velCov : C

/-- `serpent::ImuArray`. Source: ImuArray.msg:1-3. -/
structure ImuMsg (I : Type) where
  start : Int
  stop : Int
  measurements : List I

/-- `geometry_msgs::PoseWithCovarianceStamped`: stamp, transform, covariance. The argument of optimisation.cpp:263, read in 265
and 272. -/
structure RegMsg (D C : Type) where
  stamp : Int
  transform : D
  cov : C

/-- `serpent::StereoFeatures`: stamp, `right_info.P[3]`, `right_info.P[0]` and the features (the other camera parameters only
enter the abstract `calibrate`). Source: StereoFeatures.msg:1-8; read in optimisation.cpp:299-336. -/
structure StereoMsg where
  stamp : Int
  p3 : ℚ
  p0 : ℚ
  features : List Feature

/-- `sensor_msgs::FluidPressure`. The argument of optimisation.cpp:338, read in 342-361. -/
structure BaroMsg where
  stamp : Int
  pressure : ℚ
  variance : ℚ

/-- `nav_msgs::Path` entry: stamp, frame id, pose. Filled in optimisation.cpp:778-782. -/
structure PathPose (Val : Type) where
  stamp : Int
  frame : String
  pose : Val
deriving DecidableEq

/-- `nav_msgs::Path`. Filled in optimisation.cpp:774-784. -/
structure Path (Val : Type) where
  stamp : Int
  frame : String
  poses : List (PathPose Val)
deriving DecidableEq

/-- Published messages. In optimisation.cpp:455 and 529, 590, 601, 607, 608. -/
inductive Pub (Val : Type) where
  | imuTransform (stamp : Int) (t : Option Val)
  | odometry (stamp : Int) (pose vel : Val)
  | biases (stamp : Int) (bias : Val)
  | path (p : Path Val)
  | pathChanges (p : Path Val)

/-! ### Environment -/

/-- Parameters read in the constructor and in callbacks. In optimisation.cpp:65-68, 84, 244-258, 370, 507-508. -/
structure Cfg where
  /-- `imu_factors_enabled` -/
  imu : Bool
  /-- `registration_factors_enabled` -/
  reg : Bool
  /-- `stereo_factors_enabled` -/
  stereo : Bool
  /-- `barometer_factors_enabled` -/
  baro : Bool
  baroBiasNoise : ℚ := 1
  priorBaroNoise : ℚ := 1
  priorAccelNoise : ℚ := 1
  priorGyroNoise : ℚ := 1
  marginalisation : Option Int := none
  prefixId : String := "body"
  mapFrame : String := "map"
deriving DecidableEq

/-- The numerical operations used by the callbacks of optimisation.cpp:263-756. `Val`: variable values, `D`: measurements, `O`: optimiser state,
`C`: covariances, `I`: IMU measurements. -/
structure Api (Val D O C I : Type) where
  opt : OptApi Val D O
  /-- variables that the last update reports as changed (`gtsam::ISAM2Result`) -/
  changed : O → List Key
  /-- `marginalCovariance` -/
  marginal : O → Key → Outcome Unit
  /-- `pose * transform`, optimisation.cpp:291 -/
  compose : Val → D → Val
  /-- `ConstantBias()` -/
  zeroBias : Val
  /-- `eigen_ext::is_valid_covariance` -/
  validCov : C → Bool
  /-- `noiseModel::Gaussian::Covariance(c)->sigmas().minCoeff() == 0.0` -/
  zeroSigma : C → Bool
  /-- preintegration with the checks of optimisation.cpp:409-424 -/
  preintegrate : Val → ImuMsg I → Outcome D
  /-- `preintegrated_imu.predict` : pose, velocity, bias -/
  predict : Val → Val → Val → D → Val × Val
  /-- `hasNaN` -/
  nan : Val → Bool
  /-- relative transform in the lidar frame, optimisation.cpp:442-446 -/
  s2s : Val → Val → Val
  /-- velocity from two consecutive poses and their time difference, optimisation.cpp:760-768 -/
  velocity : Val → Val → Int → Val
  /-- `Cal3_S2Stereo` from the camera info -/
  calibrate : StereoMsg → (Val → D → Val)
  /-- measurement of a stereo factor -/
  obs : StereoPoint → D
  /-- measurement of a barometric factor -/
  pressure : ℚ → D
  /-- `heightOut(pressure)` -/
  height : ℚ → Val
  /-- a value used as the measurement of a prior factor -/
  prior : Val → D
  /-- the measurement 0.0 of the bias random walk -/
  zero : D

/-- State of the back end: the graph manager and the mutex, with records of what was published and of the calls of
`gm->optimise` (the argument and the graph at the time of the call). Members of optimisation.hpp:146 and 163. -/
structure BE (Val D O : Type) where
  isam : Isam Val D O
  locked : Bool := false
  published : List (Pub Val) := []
  calls : List (Int × GM Val D) := []

variable {Val D O C I : Type}

/-- A method of the graph manager. As in optimisation.cpp:544. -/
def onIsam {α : Type} (m : M (Isam Val D O) α) : M (BE Val D O) α := fun s =>
  let r := m s.isam
  (r.1, { s with isam := r.2 })

/-- A method of the `GraphManager` base class. As in optimisation.cpp:264. -/
def onG {α : Type} (m : M (GM Val D) α) : M (BE Val D O) α := onIsam (onGm m)

/-- A `const` method of the graph manager. As in optimisation.cpp:341. -/
def read {α : Type} (f : GM Val D → Outcome α) : M (BE Val D O) α := fun s => (f s.isam.gm, s)

/-- `if (c) { a } else { b }` as a statement. As in optimisation.cpp:458-469. -/
def branch {α : Type} (c : Prop) [Decidable c] (a b : M (BE Val D O) α) : M (BE Val D O) α := if c then a else b

/-- `publisher.publish(msg)`. As in optimisation.cpp:455. -/
def emit (p : Pub Val) : M (BE Val D O) Unit := M.modify fun s => { s with published := s.published ++ [p] }

/-- `graph_mutex.lock()`. As in optimisation.cpp:340, 400, 717. -/
def lock : M (BE Val D O) Unit := M.modify fun s => { s with locked := true }

/-- `graph_mutex.unlock()`. As in optimisation.cpp:388, 471, 755. -/
def unlock : M (BE Val D O) Unit := M.modify fun s => { s with locked := false }

/-- `std::lock_guard`: the mutex is released on every way out. As in optimisation.cpp:479 and 695. -/
def guarded {α : Type} (m : M (BE Val D O) α) : M (BE Val D O) α := fun s =>
  let r := m { s with locked := true }
  (r.1, { r.2 with locked := false })

/-! ### Sleeping -/

/-- What other threads do during one sleep period (while the mutex is free). During utilities.cpp:81-83. -/
abbrev Env (Val D O : Type) := BE Val D O → BE Val D O

/-- Loop of utilities.cpp:80-84 for `already_locked = leave_locked = true`. Each call of `ros::ok()` that returns true
takes one entry of the list (what other threads do if a sleep follows); when the list is used up `ros::ok()` returns
false from then on. The result is the final `ros::ok()` (line 88). -/
def protectedSleep (cond : M (BE Val D O) Bool) : List (Env Val D O) → M (BE Val D O) Bool
  | [] => pure false
  | e :: rest => do
    let c ← cond
    if c then do
      unlock
      M.modify e
      lock
      protectedSleep cond rest
    else pure (!rest.isEmpty)

/-! ### Optimisation and publication -/

/-- optimisation.cpp:539-565. The catch clauses rethrow; the logging reads `timestamp(key)`. -/
def optimiseB (er : EndRead) (api : Api Val D O C I) (k : Int) : M (BE Val D O) Unit := do
  M.modify fun s => { s with calls := s.calls ++ [(k, s.isam.gm)] }
  onIsam (optimise er api.opt k)
  let _ ← read (fun g => timestamp g k)
  pure ()

/-- Loop of optimisation.cpp:777-783 (`n` remaining keys, starting at `k`). -/
def pathLoop (g : GM Val D) (pre : String) : Nat → Int → Outcome (List (PathPose Val))
  | 0, _ => .ok []
  | n + 1, k => do
    let t ← timestamp g k
    let p ← pose g k
    let rest ← pathLoop g pre n (k + 1)
    .ok ({ stamp := t, frame := pre ++ "_" ++ toString k, pose := p } :: rest)

/-- `convert_to_path`, optimisation.cpp:772-785. -/
def convertToPath (g : GM Val D) (maxKey : Int) (pre mapFrame : String) : Outcome (Path Val) := do
  let t ← timestamp g maxKey
  let ps ← pathLoop g pre (maxKey + 1).toNat 0
  .ok { stamp := t, frame := mapFrame, poses := ps }

/-- Loop of optimisation.cpp:790-793 (the optimisation result is not looked at). -/
def copyPoses (_changed : List Key) : List (PathPose Val) → List (PathPose Val)
  | [] => []
  | p :: rest => p :: copyPoses _changed rest

/-- `extract_changed_poses`, optimisation.cpp:787-795. -/
def extractChangedPoses (p : Path Val) (changed : List Key) : Path Val :=
  { stamp := p.stamp, frame := p.frame, poses := copyPoses changed p.poses }

/-- `gm->pose_covariance(key)` etc.: graph_manager.cpp:582-588, 619-621 and 630-632, marginal covariance of the optimiser. -/
def marginalOf (api : Api Val D O C I) (c : Fam) (k : Int) : M (BE Val D O) Unit := do
  let raw ← M.lift (sym c k)
  let s ← M.get
  M.lift (api.marginal s.isam.opt raw)

/-- optimisation.cpp:567-608 (the publication of the stereo points for debugging, 610-616, is in StereoPoints.lean). -/
def publish (api : Api Val D O C I) (cfg : Cfg) (k : Int) : M (BE Val D O) Unit := do
  let t ← read (fun g => timestamp g k)
  let p ← read (fun g => pose g k)
  branch cfg.stereo (pure ()) (marginalOf api .X k)
  let v ← read (fun g => velocity g k)
  branch cfg.imu (marginalOf api .V k) (pure ())
  emit (.odometry t p v)
  let b ← read (fun g => imuBias g k)
  emit (.biases t b)
  let path ← read (fun g => convertToPath g k cfg.prefixId cfg.mapFrame)
  let s ← M.get
  emit (.path path)
  emit (.pathChanges (extractChangedPoses path (api.changed s.isam.opt)))

/-- optimisation.cpp:535-537. -/
def optimiseAndPublish (er : EndRead) (api : Api Val D O C I) (cfg : Cfg) (k : Int) : M (BE Val D O) Unit := do
  optimiseB er api k
  publish api cfg k

/-! ### Constructor -/

/-- optimisation.cpp:167-261: named keys, marginalisation, checks on parameters. -/
def construct (cfg : Cfg) : M (BE Val D O) Unit := do
  onG (setNamedKey "imu" 0 0)
  branch cfg.reg (onG (setNamedKey "reg" 0 0)) (pure ())
  branch cfg.stereo (do
    onG (setNamedKey "stereo" (-1) 0)
    onG setExtrinsic) (pure ())
  branch cfg.baro (do
    onG (setNamedKey "barometer" 0 1)
    branch (cfg.baroBiasNoise = 0) M.throw (pure ())) (pure ())
  match cfg.marginalisation with
  | none => pure ()
  | some w => if w < 0 then M.throw else onIsam (setMarginalisation true w.toNat)

/-! ### Registration -/

/-- optimisation.cpp:263-297. -/
def addRegistrationFactor (api : Api Val D O C I) (msg : RegMsg D C) : M (BE Val D O) Unit := do
  onG (increment "reg")
  let k ← read (fun g => key g "reg" 0)
  let t ← read (fun g => timestamp g k)
  if t ≠ msg.stamp then M.throw else do
  if api.validCov msg.cov then M.throw else do
  if api.zeroSigma msg.cov then M.throw else do
  let k1 ← read (fun g => key g "reg" (-1))
  let p ← read (fun g => pose g k1)
  onG (setPose k (api.compose p msg.transform))
  onG (createFactor .betweenPose k msg.transform)

/-- optimisation.cpp:758-770. -/
def updateVelocity (api : Api Val D O C I) (name : String) : M (BE Val D O) Unit := do
  let k1 ← read (fun g => key g name (-1))
  let p1 ← read (fun g => pose g k1)
  let k ← read (fun g => key g name 0)
  let p ← read (fun g => pose g k)
  let dt ← read (fun g => timeBetween g k1 k)
  onG (setVelocity k (api.velocity p1 p dt))

/-- The part of `registration_callback` under the lock, optimisation.cpp:697-713. -/
def registrationBody (er : EndRead) (api : Api Val D O C I) (cfg : Cfg) (msg : RegMsg D C) : M (BE Val D O) Unit := do
  addRegistrationFactor api msg
  let k ← read (fun g => key g "reg" 0)
  let m ← read (fun g => minimumKey g 0)
  if m = k then do
    optimiseB er api k
    branch cfg.imu (pure ()) (updateVelocity api "reg")
    publish api cfg k
  else pure ()

/-- optimisation.cpp:694-714. -/
def registrationCallback (er : EndRead) (api : Api Val D O C I) (cfg : Cfg) (msg : RegMsg D C) : M (BE Val D O) Unit :=
  guarded (registrationBody er api cfg msg)

/-! ### Stereo -/

/-- optimisation.cpp:299-336. -/
def addStereoFactors (api : Api Val D O C I) (msg : StereoMsg) : M (BE Val D O) Unit := do
  onG (increment "stereo")
  let k ← read (fun g => key g "stereo" 0)
  let t ← read (fun g => timestamp g k)
  if t ≠ msg.stamp then M.throw else do
  let s ← M.get
  branch s.isam.gm.calib.isNone
    (branch ((baselineOf msg.p3 msg.p0).nonPositive = true) M.throw (onG (setCalibration (api.calibrate msg)))) (pure ())
  let fs ← M.lift (fromRos msg.features)
  onG (createStereo k (fs.map (fun e => (e.1, api.obs e.2))))

/-- Wait condition, optimisation.cpp:726. -/
def stereoWait : M (BE Val D O) Bool := do
  let k ← read (fun g => key g "stereo" 1)
  let hp ← read (fun g => hasPose g k)
  pure (!hp)

/-- Body of the loop after the wait, optimisation.cpp:730-753; returns `features_in_future`. -/
def stereoIter (er : EndRead) (api : Api Val D O C I) (cfg : Cfg) (msg : StereoMsg) : M (BE Val D O) Bool := do
  let k1 ← read (fun g => key g "stereo" 1)
  let t ← read (fun g => timestamp g k1)
  if msg.stamp ≥ t then do
    branch (msg.stamp = t) (addStereoFactors api msg) (onG (increment "stereo"))
    let m ← read (fun g => minimumKey g 0)
    let k ← read (fun g => key g "stereo" 0)
    branch (m = k ∧ k > 0) (do
      optimiseAndPublish er api cfg k
      branch cfg.imu (pure ()) (updateVelocity api "stereo")) (pure ())
    pure (decide (msg.stamp > t))
  else pure false

/-- Loop of optimisation.cpp:719-754; one entry of the list per iteration. -/
def stereoLoopB (er : EndRead) (api : Api Val D O C I) (cfg : Cfg) (msg : StereoMsg) :
    List (List (Env Val D O)) → M (BE Val D O) Unit
  | [] => do
    let _ ← stereoWait
    let _ ← protectedSleep stereoWait []
    pure ()
  | script :: rest => do
    let _ ← stereoWait
    let ok ← protectedSleep stereoWait script
    if ok then do
      let again ← stereoIter er api cfg msg
      if again then stereoLoopB er api cfg msg rest else unlock
    else pure ()

/-- optimisation.cpp:716-756. -/
def stereoCallback (er : EndRead) (api : Api Val D O C I) (cfg : Cfg) (msg : StereoMsg)
    (scripts : List (List (Env Val D O))) : M (BE Val D O) Unit := do
  lock
  stereoLoopB er api cfg msg scripts

/-! ### Barometer -/

/-- Loop of optimisation.cpp:343-345 (`n` bounds the number of iterations: each one passes a stored pose). -/
def baroAdvance (stamp : Int) : Nat → M (BE Val D O) Unit
  | 0 => pure ()
  | n + 1 => do
    let k ← read (fun g => key g "barometer" 0)
    let hp ← read (fun g => hasPose g k)
    if hp then do
      let t ← read (fun g => timestamp g k)
      if t < stamp then do
        onG (increment "barometer")
        baroAdvance stamp n
      else pure ()
    else pure ()

/-- Wait condition, optimisation.cpp:342-349. -/
def baroWait (stamp : Int) : M (BE Val D O) Bool := do
  let s ← M.get
  baroAdvance stamp (s.isam.gm.values.length + 1)
  let k ← read (fun g => key g "barometer" 0)
  let hp ← read (fun g => hasPose g k)
  if hp then do
    let t ← read (fun g => timestamp g k)
    pure (decide (t < stamp))
  else pure true

/-- Loop of optimisation.cpp:380-384 (`n` remaining iterations starting at `k`). -/
def baroBiasLoop (api : Api Val D O C I) : Nat → Int → M (BE Val D O) Unit
  | 0, _ => pure ()
  | n + 1, k => do
    onG (createFactor .baroBias k api.zero)
    let b ← read (fun g => barometerBias g (k - 1))
    onG (setBarometerBias k b)
    baroBiasLoop api n (k + 1)

/-- optimisation.cpp:350-387 (after the wait); `next` is the local variable `next_barometer_key`. -/
def baroBody (api : Api Val D O C I) (cfg : Cfg) (next : Int) (msg : BaroMsg) : M (BE Val D O) Unit := do
  let k ← read (fun g => key g "barometer" 0)
  let t ← read (fun g => timestamp g k)
  if t ≠ msg.stamp then M.throw else do
  if msg.variance ≤ 0 then M.throw else do
  onG (createFactor .baro k (api.pressure (msg.pressure / 1000)))
  branch (next = 0) (do
    onG (setBarometerBias 0 (api.height (msg.pressure / 1000)))
    branch (cfg.priorBaroNoise = 0) M.throw
      (onG (createFactor .priorBaro k (api.prior (api.height (msg.pressure / 1000)))))) (pure ())
  baroBiasLoop api (k - max 1 next + 1).toNat (max 1 next)
  onG (increment "barometer")

/-- optimisation.cpp:338-389. -/
def barometerCallback (api : Api Val D O C I) (cfg : Cfg) (msg : BaroMsg) (script : List (Env Val D O)) :
    M (BE Val D O) Unit := do
  lock
  let next ← read (fun g => key g "barometer" 0)
  let ok ← protectedSleep (baroWait msg.stamp) script
  if ok then do
    baroBody api cfg next msg
    unlock
  else pure ()

/-! ### IMU -/

/-- Wait condition, optimisation.cpp:405. -/
def imuWait : M (BE Val D O) Bool := do
  let s ← M.get
  let k ← read (fun g => key g "imu" 0)
  pure (decide (s.isam.optKey ≠ k))

/-- The logged condition of optimisation.cpp:401-404 (reads two time stamps when it has to wait). -/
def imuWarn : M (BE Val D O) Unit := do
  let s ← M.get
  let k ← read (fun g => key g "imu" 0)
  if s.isam.optKey ≠ k then do
    let _ ← read (fun g => timestamp g s.isam.optKey)
    let _ ← read (fun g => timestamp g k)
    pure ()
  else pure ()

/-- optimisation.cpp:409-469 (after the wait). -/
def imuBody (er : EndRead) (api : Api Val D O C I) (cfg : Cfg) (msg : ImuMsg I) : M (BE Val D O) Unit := do
  let k0 ← read (fun g => key g "imu" 0)
  let b0 ← read (fun g => imuBias g k0)
  let pre ← M.lift (api.preintegrate b0 msg)
  onG (increment "imu")
  let k1 ← read (fun g => key g "imu" (-1))
  let b1 ← read (fun g => imuBias g k1)
  let k ← read (fun g => key g "imu" 0)
  onG (setImuBias k b1)
  let nav ← read (fun g => navstate g k1)
  let b2 ← read (fun g => imuBias g k1)
  onG (setNavstate k (api.predict nav.1 nav.2 b2 pre).1 (api.predict nav.1 nav.2 b2 pre).2)
  onG (setTimestamp k msg.stop)
  let p ← read (fun g => pose g k)
  if api.nan p then M.throw else do
  let v ← read (fun g => velocity g k)
  if api.nan v then M.throw else do
  let p1 ← read (fun g => pose g k1)
  let t ← read (fun g => timestamp g k)
  emit (.imuTransform t (some (api.s2s p1 p)))
  if cfg.imu then do
    onG (createFactor .combinedImu k pre)
    let m ← read (fun g => minimumKey g 0)
    if m = k then optimiseAndPublish er api cfg k else pure ()
  else pure ()

/-- optimisation.cpp:391-472. -/
def imuCallback (er : EndRead) (api : Api Val D O C I) (cfg : Cfg) (msg : ImuMsg I) (script : List (Env Val D O)) :
    M (BE Val D O) Unit :=
  if msg.measurements.isEmpty then M.throw else do
  lock
  imuWarn
  let ok ← protectedSleep imuWait script
  if ok then do
    imuBody er api cfg msg
    unlock
  else pure ()

/-! ### Initial odometry -/

/-- optimisation.cpp:480-532. -/
def initialBody (er : EndRead) (api : Api Val D O C I) (cfg : Cfg) (msg : OdomMsg Val C) : M (BE Val D O) Unit := do
  onG (setImuBias 0 api.zeroBias)
  onG (setPose 0 msg.pose)
  onG (setTimestamp 0 msg.stamp)
  onG (setVelocity 0 msg.velocity)
  if api.zeroSigma msg.poseCov then M.throw else do
  let p ← read (fun g => pose g 0)
  onG (createFactor .priorPose 0 (api.prior p))
  branch cfg.imu (do
    if api.zeroSigma msg.velCov then M.throw else do
    let v ← read (fun g => velocity g 0)
    onG (createFactor .priorVelocity 0 (api.prior v))
    if cfg.priorAccelNoise = 0 then M.throw else do
    if cfg.priorGyroNoise = 0 then M.throw else do
    let b ← read (fun g => imuBias g 0)
    onG (createFactor .priorImuBias 0 (api.prior b))) (pure ())
  emit (.imuTransform msg.stamp none)
  optimiseAndPublish er api cfg 0

/-- optimisation.cpp:474-533. -/
def initialCallback (er : EndRead) (api : Api Val D O C I) (cfg : Cfg) (msg : OdomMsg Val C) : M (BE Val D O) Unit :=
  guarded (initialBody er api cfg msg)

/-! ### The running node

Every callback holds `graph_mutex` except while it sleeps in `protected_sleep`, so an execution of the node is a sequence
of the sections between those sleeps. A section that follows a sleep runs only when its wait condition is false. The
stereo callback keeps no state between two iterations of its loop besides its message; the barometer callback keeps
`next_barometer_key`, modelled as a component of the node's state. An exception ends the process. -/

/-- State of the node. The callbacks of optimisation.cpp:338-389, 391-472, 474-533 and 694-756, with what is local to a callback
that waits. -/
structure Sys (Val D O : Type) where
  be : BE Val D O
  /-- a barometer callback is in progress, with this `next_barometer_key` -/
  baro : Option Int := none
  /-- the front end publishes the initial odometry once (frontend.cpp, `initialised`) -/
  started : Bool := false

/-- Sections. The code between two points where a callback releases the mutex (utilities.cpp:81-83 or the end of the callback).
-/
inductive Ev (Val D C I : Type) where
  | initial (msg : OdomMsg Val C)
  | imu (msg : ImuMsg I)
  | reg (msg : RegMsg D C)
  | stereo (msg : StereoMsg)
  | baroStart
  | baroPoll (stamp : Int)
  | baroFinish (msg : BaroMsg)

/-- Run a section on the node. A section: see `Ev`, utilities.cpp:81-83. -/
def sect {α : Type} (m : M (BE Val D O) α) (f : Sys Val D O → Sys Val D O) (s : Sys Val D O) :
    Option (Outcome Unit × Sys Val D O) :=
  match m s.be with
  | (.ok _, b) => some (.ok (), f { s with be := b })
  | (.throws, b) => some (.throws, { s with be := b })
  | (.ub, b) => some (.ub, { s with be := b })

/-- A section after a sleep: runs only when the wait condition is evaluated to false. The condition of utilities.cpp:80. -/
def sectAfter {α : Type} (wait : M (BE Val D O) Bool) (m : M (BE Val D O) α) (f : Sys Val D O → Sys Val D O)
    (s : Sys Val D O) : Option (Outcome Unit × Sys Val D O) :=
  match wait s.be with
  | (.ok false, b) => sect m f { s with be := b }
  | (.ok true, _) => none
  | (.throws, b) => some (.throws, { s with be := b })
  | (.ub, b) => some (.ub, { s with be := b })

/-- One section of the node (`none`: not enabled now). Callbacks of disabled factor types are not subscribed,
optimisation.cpp:86-97. -/
def nodeStep (er : EndRead) (api : Api Val D O C I) (cfg : Cfg) (ev : Ev Val D C I) (s : Sys Val D O) :
    Option (Outcome Unit × Sys Val D O) :=
  match ev with
  | .initial msg =>
    if s.started then none else sect (initialCallback er api cfg msg) (fun s => { s with started := true }) s
  | .imu msg =>
    if msg.measurements.isEmpty then some (.throws, s)
    else sectAfter (do imuWarn; imuWait) (imuBody er api cfg msg) id s
  | .reg msg => if cfg.reg then sect (registrationCallback er api cfg msg) id s else none
  | .stereo msg => if cfg.stereo then sectAfter stereoWait (stereoIter er api cfg msg) id s else none
  | .baroStart =>
    if cfg.baro then
      match s.baro, key s.be.isam.gm "barometer" 0 with
      | none, .ok k => some (.ok (), { s with baro := some k })
      | none, .throws => some (.throws, s)
      | none, .ub => some (.ub, s)
      | some _, _ => none
    else none
  | .baroPoll stamp =>
    if s.baro.isSome then sect (baroWait stamp) id s else none
  | .baroFinish msg =>
    match s.baro with
    | none => none
    | some next => sectAfter (baroWait msg.stamp) (baroBody api cfg next msg) (fun s => { s with baro := none }) s

/-- The node after its constructor, with optimiser state `o`. The constructor is optimisation.cpp:51-261. -/
def initSys (cfg : Cfg) (o : O) : Outcome Unit × BE Val D O := construct cfg { isam := { opt := o } }

/-- States reachable by sections that all completed normally. The callbacks of optimisation.cpp:86-98 and 60-62. -/
inductive NodeReach (er : EndRead) (api : Api Val D O C I) (cfg : Cfg) (o : O) : Sys Val D O → Prop where
  | init {b : BE Val D O} : initSys cfg o = (.ok (), b) → NodeReach er api cfg o { be := b }
  | step {s s' : Sys Val D O} {ev : Ev Val D C I} :
      NodeReach er api cfg o s → nodeStep er api cfg ev s = some (.ok (), s') → NodeReach er api cfg o s'

/-- States reachable by sections, the last of which may have ended the process. The callbacks of optimisation.cpp:86-98 and
60-62. -/
inductive NodeSeen (er : EndRead) (api : Api Val D O C I) (cfg : Cfg) (o : O) : Sys Val D O → Prop where
  | reach {s : Sys Val D O} : NodeReach er api cfg o s → NodeSeen er api cfg o s
  | last {s s' : Sys Val D O} {ev : Ev Val D C I} {r : Outcome Unit} :
      NodeReach er api cfg o s → nodeStep er api cfg ev s = some (r, s') → NodeSeen er api cfg o s'

/-- Run a list of sections. The callbacks of optimisation.cpp:86-98 and 60-62. -/
def nodeRun (er : EndRead) (api : Api Val D O C I) (cfg : Cfg) : List (Ev Val D C I) → Sys Val D O →
    Option (Sys Val D O)
  | [], s => some s
  | ev :: evs, s =>
    match nodeStep er api cfg ev s with
    | some (.ok (), s') => nodeRun er api cfg evs s'
    | _ => none

theorem nodeReach_run {er : EndRead} {api : Api Val D O C I} {cfg : Cfg} {o : O} {evs : List (Ev Val D C I)}
    {s s' : Sys Val D O} (h : NodeReach er api cfg o s) (hr : nodeRun er api cfg evs s = some s') :
    NodeReach er api cfg o s' := by
  induction evs generalizing s with
  | nil => simp [nodeRun] at hr; subst hr; exact h
  | cons ev evs ih =>
    simp only [nodeRun] at hr
    split at hr
    · rename_i s1 h1
      exact ih (h.step h1) hr
    · simp at hr

end BackEnd

end Serpent
