import Verif.Model.Utilities

/-!
# Model of the front end (`Frontend`)

Source: `serpent/src/front_end/frontend.cpp`.

The node runs its callbacks in several threads (`ros::AsyncSpinner`). Data shared by the callbacks is only touched while
the mutex that protects it is held, so an execution is a sequence of sections between releasing and taking mutexes. The
pointcloud callback consists of six sections, one callback of it runs at a time; the optimised odometry callback consists of
two sections and holds `preintegration_mutex` in between; the other callbacks are one section each.

Simplifications (apply to the whole file):
* Times are integers (nanoseconds). PCL stamps count microseconds.
* IMU data is an element of an arbitrary type `A`. A preintegration is the list of the measurements integrated with their
  durations. Poses, velocities and the numerical part of deskewing are not modelled here.
* Only the stamp of a stereo frame is kept.
* Shutdown (`ros::ok()` returning false) is not modelled here; see `Utils.protectedSleep`.
* `Ghost` fields record what was received and sent; no code reads them.
-/

namespace Serpent

namespace FrontEnd

open Utils

variable {A K : Type}

/-- `pcl::PCLPointCloud2`: stamp in microseconds, largest value of field `t` as duration (0 if there is no such field), whether
it has no points. Used in frontend.cpp:381-406. -/
structure Cloud where
  usec : Int
  sweep : Int
  empty : Bool := false
deriving DecidableEq, Repr

/-- `pcl_conversions::fromPCL(msg->header.stamp)`. Used in frontend.cpp:348-360. -/
def Cloud.start (c : Cloud) : Int := c.usec * 1000

/-- frontend.cpp:446-449. -/
def Cloud.stop (c : Cloud) : Int := c.start + c.sweep

/-- Published messages. Of frontend.cpp:204-577. -/
inductive Pub (A K : Type) where
  /-- frontend/imu_s2s -/
  | imuS2s (start stop : Int) (ms : List (Stamped A))
  /-- frontend/initial_odometry -/
  | initial (t : Int)
  /-- output/odometry -/
  | odometry (t : Int)
  /-- frontend/barometer -/
  | barometer (p : Pressure K)
  /-- stereo/... -/
  | stereo (t : Int)
  /-- frontend/deskewed_pointcloud, stamp in microseconds -/
  | cloud (usec : Int)
deriving DecidableEq

/-- How far the running pointcloud callback is. In frontend.cpp:329-533. -/
inductive Phase where
  /-- no callback is running -/
  | idle
  /-- before the selection of the state time -/
  | select (msg : Cloud)
  /-- state time selected -/
  | imu (msg : Cloud) (t : Int)
  /-- first state: an IMU message not before the state time has arrived -/
  | init (msg : Cloud) (t : Int)
  /-- before waiting for the biases -/
  | bias (msg : Cloud) (t : Int)
  /-- before deskewing -/
  | deskew (msg : Cloud) (t : Int)
  /-- after publishing the deskewed pointcloud -/
  | baro (msg : Cloud) (t : Int)
deriving DecidableEq, Repr

/-- What was received and sent. No counterpart in /repo; filled by the callbacks of frontend.cpp:150-577. -/
structure Ghost (A K : Type) where
  imu : List (Stamped A) := []
  baro : List (Pressure K) := []
  clouds : List Cloud := []
  /-- stamps of the stereo frames, cut to microseconds -/
  stereo : List Int := []
  /-- state times sent to the back end -/
  states : List Int := []
  /-- state times for which a barometer reading was requested -/
  baroStates : List Int := []

/-- Members of `Frontend`. Source: frontend.hpp:167-250. -/
structure FE (A K : Type) where
  imuBuffer : List (Stamped A) := []
  /-- `last_preint_imu_timestamp` -/
  lastPreint : Int := 0
  /-- `preintegrated_imu` -/
  preint : Option (List (Stamped A × Int)) := none
  /-- `imu_bias_timestamp` -/
  biasStamp : Int := 0
  /-- the optimised odometry callback is between its two sections -/
  optBusy : Bool := false
  baroBuffer : List (Pressure K) := []
  /-- `barometer_timestamp_buffer` -/
  baroTimes : List Int := []
  stereoBuffer : List Int := []
  /-- `previous_pointcloud` -/
  prevCloud : Option Cloud := none
  /-- `previous_state_time` -/
  prevState : Int := 0
  initialised : Bool := false
  phase : Phase := .idle
  pubs : List (Pub A K) := []
  ghost : Ghost A K := {}

/-- Parameters and the functions of other libraries. Read in frontend.cpp:35-145. -/
structure Cfg (A K : Type) where
  stereo : Bool
  onlyGraphFrames : Bool
  baro : Bool
  /-- GTSAM refuses durations that are not positive -/
  strict : Bool := true
  /-- `overwrite_barometer_variance`, `barometer_variance` -/
  overwriteVariance : Option K := none
  /-- `eigen_ros::interpolate` -/
  interp : Stamped A → Stamped A → Int → Outcome (Stamped A)
  /-- `check_valid` for the covariances of an IMU measurement -/
  validImu : Stamped A → Bool

/-- `publisher.publish(msg)`. Calls in frontend.cpp:204-577. -/
def FE.emit (s : FE A K) (p : Pub A K) : FE A K := { s with pubs := s.pubs ++ [p] }

/-! ### IMU -/

/-- The search of frontend.cpp:263-265, from the pair of neighbours `(a, b)` on; `at` throws behind the end. -/
def interpSearch (interp : Stamped A → Stamped A → Int → Outcome (Stamped A)) (t : Int) :
    Stamped A → List (Stamped A) → Outcome (Stamped A)
  | _, [] => .throws
  | a, b :: rest => if b.stamp < t then interpSearch interp t b rest else interp a b t

/-- `interpolated_imu`, frontend.cpp:257-266. -/
def interpolatedImu (interp : Stamped A → Stamped A → Int → Outcome (Stamped A)) (buffer : List (Stamped A)) (t : Int) :
    Outcome (Stamped A) :=
  match buffer with
  | [] => .throws
  | [_] => .throws
  | a :: b :: rest =>
    if a.stamp > t ∨ ((b :: rest).getLast (by simp)).stamp < t then .throws
    else interpSearch interp t a (b :: rest)

/-- `imu_callback`, frontend.cpp:204-255. -/
def imuCallback (cfg : Cfg A K) (m : Stamped A) (s : FE A K) : Outcome Unit × FE A K :=
  let dt := m.stamp - s.lastPreint
  let s1 := { s with
    imuBuffer := s.imuBuffer ++ [m]
    lastPreint := m.stamp
    ghost := { s.ghost with imu := s.ghost.imu ++ [m] } }
  match s.preint with
  | none => (.ok (), s1)
  | some p =>
    match record cfg.strict p m dt with
    | .ok p' => (.ok (), { s1 with preint := some p' }.emit (.odometry m.stamp))
    | .throws => (.throws, s1)
    | .ub => (.ub, s1)

/-- First section of `optimised_odometry_callback`, frontend.cpp:270-311 (publication of the pose and of the transform are
not modelled: exceptions there are caught). -/
def optimisedA (cfg : Cfg A K) (t : Int) (s : FE A K) : Outcome Unit × FE A K :=
  let s1 := { s with biasStamp := t }
  match interpolatedImu cfg.interp s.imuBuffer t with
  | .throws => (.throws, s1)
  | .ub => (.ub, s1)
  | .ok m => if cfg.validImu m then (.ok (), { s1 with optBusy := true }) else (.throws, s1)

/-- Loop of frontend.cpp:320-326: integrates the measurements later than the last one integrated. -/
def reintegrate (strict : Bool) : List (Stamped A) → Int → List (Stamped A × Int) → Outcome (List (Stamped A × Int) × Int)
  | [], last, p => .ok (p, last)
  | m :: rest, last, p =>
    if m.stamp > last then
      record strict p m (m.stamp - last) >>= fun p' => reintegrate strict rest m.stamp p'
    else reintegrate strict rest last p

/-- Second section of `optimised_odometry_callback`, frontend.cpp:314-326. -/
def optimisedB (cfg : Cfg A K) (s : FE A K) : Outcome Unit × FE A K :=
  match reintegrate cfg.strict s.imuBuffer s.biasStamp [] with
  | .ok (p, last) => (.ok (), { s with preint := some p, lastPreint := last, optBusy := false })
  | .throws => (.throws, s)
  | .ub => (.ub, s)

/-! ### Barometer -/

/-- Loop of frontend.cpp:176-178 (`at(1)` throws when there is no second measurement). -/
def dropOldBaro (t : Int) : List (Pressure K) → Outcome (List (Pressure K))
  | a :: b :: rest => if b.stamp < t then dropOldBaro t (b :: rest) else .ok (a :: b :: rest)
  | _ => .throws

variable [Field K] [LinearOrder K]

/-- `barometer_try_publish`, frontend.cpp:162-186. -/
def tryPublish (s : FE A K) : Outcome Unit × FE A K :=
  match s.baroTimes with
  | [] => (.ok (), s)
  | t :: times =>
    match s.baroBuffer with
    | [] => (.ub, s)
    | first :: rest =>
      if first.stamp > t then
        (.ok (), { s with baroTimes := times }.emit (.barometer { first with stamp := t }))
      else if s.baroBuffer.length ≥ 2 ∧ ((first :: rest).getLast (by simp)).stamp > t then
        match dropOldBaro t s.baroBuffer with
        | .throws => (.throws, s)
        | .ub => (.ub, s)
        | .ok buf =>
          match buf with
          | a :: b :: more =>
            match interpolatePressure a b t with
            | .ok p => (.ok (), { s with baroBuffer := a :: b :: more, baroTimes := times }.emit (.barometer p))
            | .throws => (.throws, { s with baroBuffer := buf })
            | .ub => (.ub, { s with baroBuffer := buf })
          | _ => (.throws, s)
      else (.ok (), s)

/-- `barometer_callback`, frontend.cpp:150-160. -/
def baroCallback (cfg : Cfg A K) (p : Pressure K) (s : FE A K) : Outcome Unit × FE A K :=
  let p' := match cfg.overwriteVariance with | some v => { p with variance := v } | none => p
  tryPublish { s with baroBuffer := s.baroBuffer ++ [p'], ghost := { s.ghost with baro := s.ghost.baro ++ [p'] } }

/-! ### Stereo -/

/-- `stereo_callback`, frontend.cpp:562-577: the stamp is cut to microseconds. -/
def stereoCallback (cfg : Cfg A K) (t : Int) (s : FE A K) : Outcome Unit × FE A K :=
  let t' := t / 1000 * 1000
  let s1 := { s with
    stereoBuffer := s.stereoBuffer ++ [t']
    ghost := { s.ghost with stereo := s.ghost.stereo ++ [t'] } }
  (.ok (), if cfg.onlyGraphFrames then s1 else s1.emit (.stereo t'))

/-! ### Pointclouds -/

/-- The waiting condition of frontend.cpp:355-360 removes old frames. -/
def dropOldStereo (t : Int) : List Int → List Int
  | [] => []
  | x :: rest => if x < t then dropOldStereo t rest else x :: rest

/-- The selection loop of frontend.cpp:393-401. `std::next(it)` is dereferenced without comparing it to the end. -/
def selectImu (a b : Int) : List (Stamped A) → Outcome (List (Stamped A))
  | [] => .ok []
  | m :: rest =>
    if m.stamp < b then
      if m.stamp > a then selectImu a b rest >>= fun l => .ok (m :: l)
      else
        match rest with
        | [] => .ub
        | n :: rest' =>
          if n.stamp > a then selectImu a b (n :: rest') >>= fun l => .ok (m :: l)
          else selectImu a b (n :: rest')
    else selectImu a b rest

/-- Arrival of a pointcloud, frontend.cpp:329-342 and 532. -/
def cloudArrives (msg : Cloud) (s : FE A K) : Outcome Unit × FE A K :=
  if msg.empty then (.throws, s)
  else
    let s1 := { s with ghost := { s.ghost with clouds := s.ghost.clouds ++ [msg] } }
    match s.prevCloud with
    | none => (.ok (), { s1 with prevCloud := some msg })
    | some _ => (.ok (), { s1 with phase := .select msg })

/-- Selection of the state time, frontend.cpp:348-375; with stereo the callback goes on waiting while there is no frame. -/
def selectState (cfg : Cfg A K) (msg prev : Cloud) (s : FE A K) : Outcome Unit × FE A K :=
  if cfg.stereo then
    match dropOldStereo prev.start s.stereoBuffer with
    | [] => (.ok (), { s with stereoBuffer := [] })
    | f :: rest =>
      if f < msg.start then
        let s1 := { s with stereoBuffer := rest, phase := .imu msg f }
        (.ok (), if cfg.onlyGraphFrames then s1.emit (.stereo f) else s1)
      else (.ok (), { s with stereoBuffer := f :: rest, phase := .imu msg prev.start })
  else (.ok (), { s with phase := .imu msg prev.start })

/-- Publication of the IMU measurements of an interval, frontend.cpp:381-406. -/
def publishS2s (msg : Cloud) (t : Int) (s : FE A K) : Outcome Unit × FE A K :=
  match s.imuBuffer with
  | [] => (.ub, s)
  | first :: _ =>
    if first.stamp > s.prevState then (.throws, s)
    else
      match selectImu s.prevState t s.imuBuffer with
      | .throws => (.throws, s)
      | .ub => (.ub, s)
      | .ok [] => (.ub, s)
      | .ok (m :: ms) =>
        (.ok (), { s with
          imuBuffer := deleteOld m.stamp s.imuBuffer
          phase := .bias msg t
          ghost := { s.ghost with states := s.ghost.states ++ [t] } }.emit (.imuS2s s.prevState t (m :: ms)))

/-- Initial state, frontend.cpp:415-443. -/
def publishInitial (cfg : Cfg A K) (msg : Cloud) (t : Int) (s : FE A K) : Outcome Unit × FE A K :=
  match interpolatedImu cfg.interp s.imuBuffer t with
  | .throws => (.throws, s)
  | .ub => (.ub, s)
  | .ok _ =>
    (.ok (), { s with
      prevState := t
      phase := .bias msg t
      ghost := { s.ghost with states := s.ghost.states ++ [t] } }.emit (.initial t))

/-- Integration over the interval before the sweep (only after initialisation) and over the sweep, frontend.cpp:461-488,
and publication of the deskewed pointcloud, 507-515. -/
def deskewCloud (cfg : Cfg A K) (msg prev : Cloud) (t : Int) (s : FE A K) : Outcome Unit × FE A K :=
  let pre := if s.initialised then integrateImu (record cfg.strict) s.imuBuffer s.prevState prev.start [] else .ok []
  match pre with
  | .throws => (.throws, s)
  | .ub => (.ub, s)
  | .ok _ =>
    match integrateImu (record cfg.strict) s.imuBuffer prev.start prev.stop [] with
    | .throws => (.throws, s)
    | .ub => (.ub, s)
    | .ok _ => (.ok (), { s with phase := .baro msg t }.emit (.cloud (t / 1000)))

/-- End of the pointcloud callback, frontend.cpp:517-532. -/
def finishCloud (cfg : Cfg A K) (msg : Cloud) (t : Int) (s : FE A K) : Outcome Unit × FE A K :=
  let r := if cfg.baro then tryPublish { s with
      baroTimes := s.baroTimes ++ [t]
      ghost := { s.ghost with baroStates := s.ghost.baroStates ++ [t] } }
    else (.ok (), s)
  match r with
  | (.ok _, s1) => (.ok (), { s1 with prevState := t, initialised := true, prevCloud := some msg, phase := .idle })
  | (.throws, s1) => (.throws, s1)
  | (.ub, s1) => (.ub, s1)

/-! ### The running node -/

/-- Sections. Sections of frontend.cpp:150-577. -/
inductive Ev (A K : Type) where
  | imu (m : Stamped A)
  | optimisedA (t : Int)
  | optimisedB
  | barometer (p : Pressure K)
  | stereo (t : Int)
  | cloud (msg : Cloud)
  /-- the running pointcloud callback goes on -/
  | go

/-- The next section of the running pointcloud callback (`none`: it waits). Sections of frontend.cpp:329-533. -/
def goStep (cfg : Cfg A K) (s : FE A K) : Option (Outcome Unit × FE A K) :=
  match s.phase, s.prevCloud with
  | .idle, _ => none
  | _, none => none
  | .select msg, some prev => some (selectState cfg msg prev s)
  | .imu msg t, some _ =>
    if s.initialised then some (publishS2s msg t s)
    -- waits on `preintegration_mutex`, frontend.cpp:409-412
    else if s.optBusy ∨ s.lastPreint < t then none
    else some (.ok (), { s with phase := .init msg t })
  | .init msg t, some _ => some (publishInitial cfg msg t s)
  | .bias msg t, some prev =>
    -- waits on `preintegration_mutex`, frontend.cpp:455-459
    if s.optBusy ∨ s.biasStamp ≠ s.prevState ∨ s.lastPreint < prev.stop then none
    else some (.ok (), { s with phase := .deskew msg t })
  | .deskew msg t, some prev => some (deskewCloud cfg msg prev t s)
  | .baro msg t, some _ => some (finishCloud cfg msg t s)

/-- One section of the node (`none`: cannot run now). Sections that take `preintegration_mutex` cannot run while the optimised
odometry callback holds it. Sections of frontend.cpp:150-577. -/
def step (cfg : Cfg A K) (ev : Ev A K) (s : FE A K) : Option (Outcome Unit × FE A K) :=
  match ev with
  | .imu m => if s.optBusy then none else some (imuCallback cfg m s)
  | .optimisedA t => if s.optBusy then none else some (optimisedA cfg t s)
  | .optimisedB => if s.optBusy then some (optimisedB cfg s) else none
  | .barometer p => if cfg.baro then some (baroCallback cfg p s) else none
  | .stereo t => if cfg.stereo then some (stereoCallback cfg t s) else none
  | .cloud msg => if s.phase = .idle then some (cloudArrives msg s) else none
  | .go => goStep cfg s

/-- What the sensors and the back end are assumed to do: IMU, barometer and pointcloud stamps increase and are positive; the
back end reports the states that were sent to it, in order and once. (No assumption on stereo stamps.) For the callbacks of
frontend.cpp:150-577. -/
def Admissible (ev : Ev A K) (s : FE A K) : Prop :=
  match ev with
  | .imu m => 0 < m.stamp ∧ ∀ x ∈ s.ghost.imu, x.stamp < m.stamp
  | .optimisedA t => t ∈ s.ghost.states ∧ s.biasStamp < t
  | .barometer p => ∀ x ∈ s.ghost.baro, x.stamp < p.stamp
  | .cloud msg => 0 < msg.start ∧ ∀ x ∈ s.ghost.clouds, x.start < msg.start
  | _ => True

/-- States reachable by admissible sections that all completed normally. For the callbacks of frontend.cpp:150-577. -/
inductive Reach (cfg : Cfg A K) : FE A K → Prop where
  | init : Reach cfg {}
  | step {s s' : FE A K} {ev : Ev A K} :
      Reach cfg s → Admissible ev s → step cfg ev s = some (.ok (), s') → Reach cfg s'

end FrontEnd

end Serpent
