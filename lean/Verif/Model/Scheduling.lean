import Mathlib.Data.Int.Order.Basic
import Mathlib.Order.Basic

/-!
# Model of the callbacks of the whole system waiting for one another

Sources: `serpent/src/front_end/frontend.cpp`, `serpent/src/back_end/optimisation.cpp`,
`serpent/include/serpent/front_end/lidar/registration-inl.hpp`, `serpent/include/serpent/mapping/mapping-inl.hpp`,
`serpent/src/nodes/*.cpp`, `serpent/src/utils/utilities.cpp`.

Every callback runs in a thread of a `ros::AsyncSpinner` and keeps that thread while it waits in `protected_sleep`. Two messages
of one subscription are never handled at the same time (the default of roscpp). Five callbacks wait: the one for pointclouds, for
IMU arrays, for stereo features, for pressures and for local maps. All others are short: they need a thread, and are one event here.

Simplifications (apply to the whole file):
* The states are numbered; the message of a topic that belongs to state `k` is the `k`-th one of that topic, so a topic is a
  number of messages. Only the stamps of stereo frames are kept, because features may belong to no state.
* `T k` is the time of state `k`, given in advance. Clouds that the subscription queue (length 1) dropped do not occur.
* The filters, the addition of unit vectors and the estimation of normals are one event (`filtered`).
* Callbacks do not throw, `ros::ok()` stays true, and queues do not overflow.
* The first pointcloud, which is only saved (frontend.cpp:342 and 532), has been handled.
-/

namespace Serpent

namespace Schedule

/-- Parameters: `optimisation/factors/...`, `s2m/enabled`, `stereo_tracking/only_graph_frames`, `threads`, and whether the system
runs as one node (node.cpp) or as front end and back end nodes (frontend_node.cpp, backend_node.cpp). -/
structure Cfg where
  imu : Bool
  reg : Bool
  stereo : Bool
  baro : Bool
  s2m : Bool
  onlyGraph : Bool
  split : Bool
  threads : Nat
deriving DecidableEq

/-- What the sensors measure: the state times, and whether a stereo frame lies between the start of the pointcloud of a state
and the start of the next one. No counterpart in /repo. -/
structure Data where
  T : Nat → Int
  hasFrame : Nat → Bool

/-- How far the running pointcloud callback is. In frontend.cpp:329-533. -/
inductive Phase where
  /-- no callback is running -/
  | idle
  /-- before the selection of the state time, frontend.cpp:349 -/
  | select
  /-- state time selected, frontend.cpp:377 -/
  | imu
  /-- before the wait for the biases, frontend.cpp:455 -/
  | bias
deriving DecidableEq

/-- The system. The members used by the sections cited at `step`. -/
structure Node where
  phase : Phase := .idle
  /-- states whose pointcloud callback has ended: deskewed pointclouds published -/
  done : Nat := 0
  /-- states for which the sensor data the pointcloud callback waits for has been received: IMU messages past the end of the sweep
  and, with stereo and `only_graph_frames`, a stereo frame not before the pointcloud -/
  sensors : Nat := 0
  /-- stamps of the stereo frames published to the tracker -/
  frames : List Int := []
  /-- of these, the ones the tracker has not handled -/
  images : List Int := []
  /-- stereo features waiting for a thread -/
  features : List Int := []
  /-- features the running stereo features callback handles -/
  stereoRun : Option Int := none
  /-- named key "stereo", plus one -/
  stereoKeys : Nat := 0
  /-- initial odometry and IMU arrays published -/
  sent : Nat := 0
  /-- an IMU array callback is running -/
  imuRun : Bool := false
  /-- named key "imu", plus one: the keys that have a pose (0: no initial odometry yet) -/
  poses : Nat := 0
  /-- `opt_key`, plus one (0: not optimised yet): odometry, biases and path changes published -/
  opt : Nat := 0
  /-- named key "reg" -/
  regKey : Nat := 0
  /-- states whose biases the front end has received -/
  bias : Nat := 0
  /-- clouds with normals published -/
  normals : Nat := 0
  /-- clouds handled by the scan-to-scan callback -/
  scans : Nat := 0
  /-- local maps published -/
  maps : Nat := 0
  /-- scan-to-scan registrations waiting for a local map -/
  queue : Nat := 0
  /-- local maps whose callback has been started -/
  mapsTaken : Nat := 0
  /-- a local map callback is running -/
  mapRun : Bool := false
  /-- refined transforms published -/
  regSent : Nat := 0
  /-- pressures published -/
  baroSent : Nat := 0
  /-- pressures whose callback has been started -/
  baroTaken : Nat := 0
  /-- a pressure callback is running -/
  baroRun : Bool := false
deriving DecidableEq

/-- Threads of the front end that are taken. The spinner of frontend_node.cpp:55-62. -/
def busyFront (s : Node) : Nat := if s.phase = .idle then 0 else 1

/-- Threads of the back end that are taken. The spinner of backend_node.cpp (the same as node.cpp:75-82). -/
def busyBack (s : Node) : Nat := s.stereoRun.isSome.toNat + s.imuRun.toNat + s.mapRun.toNat + s.baroRun.toNat

/-- A thread is free for a callback of the front end (node.cpp:75-82, frontend_node.cpp:55-62). -/
def FreeFront (cfg : Cfg) (s : Node) : Prop :=
  (if cfg.split then busyFront s else busyFront s + busyBack s) < cfg.threads

/-- A thread is free for a callback of the back end (node.cpp:75-82, backend_node.cpp:43-50). -/
def FreeBack (cfg : Cfg) (s : Node) : Prop :=
  (if cfg.split then busyBack s else busyFront s + busyBack s) < cfg.threads

instance (cfg : Cfg) (s : Node) : Decidable (FreeFront cfg s) := by unfold FreeFront; infer_instance

instance (cfg : Cfg) (s : Node) : Decidable (FreeBack cfg s) := by unfold FreeBack; infer_instance

/-- `gm->minimum_key(0)` with the named keys of optimisation.cpp:169-174 (that of the barometer has priority 1). -/
def minKey (cfg : Cfg) (s : Node) : Int :=
  let a : Int := (s.poses : Int) - 1
  let b : Int := if cfg.reg then min a s.regKey else a
  if cfg.stereo then min b ((s.stereoKeys : Int) - 1) else b

/-- Optimisation and publication if no other factors are missing, optimisation.cpp:466-468, 702-713, 745-746. -/
def optimiseIf (c : Prop) [Decidable c] (k : Nat) (s : Node) : Node := if c then { s with opt := k + 1 } else s

/-- Sections and short callbacks. The functions cited at `step`. -/
inductive Ev where
  /-- a pointcloud callback starts, frontend.cpp:329-342 -/
  | cloud
  /-- sensor data for the next state has been received: `imu_callback`, `stereo_callback`, frontend.cpp:204, 562 -/
  | sensor
  /-- a stereo frame is republished at once (without `only_graph_frames`), frontend.cpp:562-577 -/
  | frame (t : Int)
  /-- a pressure is published, frontend.cpp:162-186 -/
  | pressure
  /-- state time selected, frontend.cpp:348-377 -/
  | select
  /-- initial odometry or IMU array published, frontend.cpp:381-445 -/
  | send
  /-- biases and IMU data there: deskewed cloud published, end of the callback, frontend.cpp:455-532 -/
  | finish
  /-- optimised odometry callback, frontend.cpp:268-327 -/
  | biases
  /-- filters, unit vectors and normal estimation -/
  | filtered
  /-- stereo tracker -/
  | track
  /-- initial odometry callback, optimisation.cpp:474-533 -/
  | initial
  /-- an IMU array callback starts, optimisation.cpp:391-405 -/
  | imuStart
  /-- its wait ends, optimisation.cpp:405-471 -/
  | imuFinish
  /-- a stereo features callback starts, optimisation.cpp:716-722 -/
  | stereoStart
  /-- one round of its loop, optimisation.cpp:722-754 -/
  | stereoRound
  /-- registration callback, optimisation.cpp:694-714 -/
  | register
  /-- a pressure callback starts, optimisation.cpp:338-342 -/
  | baroStart
  /-- its wait ends, optimisation.cpp:342-388 -/
  | baroFinish
  /-- scan-to-scan callback, registration-inl.hpp:224-313 -/
  | scan
  /-- map update callback, mapping-inl.hpp:177-228 -/
  | map
  /-- a local map callback starts, registration-inl.hpp:318-320 -/
  | mapStart
  /-- its wait ends, registration-inl.hpp:320-367 -/
  | mapFinish

/-- Arrival of sensor data; the other events are internal. No counterpart in /repo. -/
def Ev.external : Ev → Bool
  | .cloud | .sensor | .frame _ | .pressure => true
  | _ => false

/-- Publication of a stereo frame to the tracker, frontend.cpp:535-560. -/
def Node.publishFrame (s : Node) (t : Int) : Node := { s with frames := s.frames ++ [t], images := s.images ++ [t] }

/-- The state of the biases the pointcloud callback waits for, frontend.cpp:456: `previous_state_time` is the time of the state
before, or of the first state itself (444). -/
def Node.awaited (s : Node) : Nat := max s.done 1

/-- The selection of the state time can go on, frontend.cpp:350-362. -/
def SelectReady (cfg : Cfg) (d : Data) (s : Node) : Prop :=
  cfg.stereo = true → if cfg.onlyGraph then s.done < s.sensors else ∃ f ∈ s.frames, d.T s.done ≤ f

instance (cfg : Cfg) (d : Data) (s : Node) : Decidable (SelectReady cfg d s) := by unfold SelectReady; infer_instance

/-- One round of the loop of the stereo features callback with features of time `t`, optimisation.cpp:730-754. -/
def stereoRound (cfg : Cfg) (d : Data) (t : Int) (s : Node) : Node :=
  let k := s.stereoKeys
  if t < d.T k then { s with stereoRun := none }
  else
    let s1 := { s with stereoKeys := k + 1, stereoRun := if t = d.T k then none else some t }
    optimiseIf (minKey cfg s1 = k ∧ 0 < k) k s1

/-- One event (`none`: it cannot happen now). The cases cite the functions they stand for; e.g. frontend.cpp:329-577,
optimisation.cpp:338-754. -/
def step (cfg : Cfg) (d : Data) (s : Node) : Ev → Option Node
  | .cloud => if s.phase = .idle ∧ FreeFront cfg s then some { s with phase := .select } else none
  | .sensor => if FreeFront cfg s then some { s with sensors := s.sensors + 1 } else none
  | .frame t =>
    if cfg.stereo = true ∧ cfg.onlyGraph = false ∧ FreeFront cfg s then some (s.publishFrame t) else none
  | .pressure => if cfg.baro = true ∧ s.baroSent < s.done then some { s with baroSent := s.baroSent + 1 } else none
  | .select =>
    if s.phase = .select ∧ SelectReady cfg d s then
      some { (if cfg.stereo = true ∧ cfg.onlyGraph = true ∧ d.hasFrame s.done = true then s.publishFrame (d.T s.done) else s) with
        phase := .imu }
    else none
  | .send =>
    -- the first state waits for IMU data, frontend.cpp:406-409
    if s.phase = .imu ∧ (s.done = 0 → s.done < s.sensors) then some { s with phase := .bias, sent := s.sent + 1 } else none
  | .finish =>
    if s.phase = .bias ∧ s.bias = s.awaited ∧ s.done < s.sensors then some { s with phase := .idle, done := s.done + 1 } else none
  | .biases => if s.bias < s.opt ∧ FreeFront cfg s then some { s with bias := s.bias + 1 } else none
  | .filtered => if cfg.reg = true ∧ s.normals < s.done ∧ FreeFront cfg s then some { s with normals := s.normals + 1 } else none
  | .track =>
    match s.images with
    | [] => none
    | f :: rest => if FreeBack cfg s then some { s with images := rest, features := s.features ++ [f] } else none
  | .initial =>
    if s.poses = 0 ∧ 0 < s.sent ∧ FreeBack cfg s then some { s with poses := 1, opt := 1 } else none
  | .imuStart =>
    if s.imuRun = false ∧ 0 < s.poses ∧ s.poses < s.sent ∧ FreeBack cfg s then some { s with imuRun := true } else none
  | .imuFinish =>
    if s.imuRun = true ∧ s.opt = s.poses then
      let s1 := { s with imuRun := false, poses := s.poses + 1 }
      some (optimiseIf (cfg.imu = true ∧ minKey cfg s1 = s.poses) s.poses s1)
    else none
  | .stereoStart =>
    match s.features, s.stereoRun with
    | f :: rest, none => if FreeBack cfg s then some { s with features := rest, stereoRun := some f } else none
    | _, _ => none
  | .stereoRound =>
    match s.stereoRun with
    | none => none
    | some t => if s.stereoKeys < s.poses then some (stereoRound cfg d t s) else none
  | .register =>
    if s.regKey < s.regSent ∧ FreeBack cfg s then
      let s1 := { s with regKey := s.regKey + 1 }
      some (optimiseIf (minKey cfg s1 = s.regKey + 1) (s.regKey + 1) s1)
    else none
  | .baroStart =>
    if s.baroRun = false ∧ s.baroTaken < s.baroSent ∧ FreeBack cfg s then
      some { s with baroRun := true, baroTaken := s.baroTaken + 1 }
    else none
  | .baroFinish => if s.baroRun = true ∧ s.baroTaken ≤ s.poses then some { s with baroRun := false } else none
  | .scan =>
    if s.scans < s.normals ∧ s.scans < s.poses ∧ FreeBack cfg s then
      some { s with
        scans := s.scans + 1
        queue := if 0 < s.scans ∧ cfg.s2m = true then s.queue + 1 else s.queue
        regSent := if 0 < s.scans ∧ cfg.s2m = false then s.regSent + 1 else s.regSent }
    else none
  | .map => if s.maps < s.normals ∧ s.maps < s.opt ∧ FreeBack cfg s then some { s with maps := s.maps + 1 } else none
  | .mapStart =>
    if s.mapRun = false ∧ s.mapsTaken < s.maps ∧ FreeBack cfg s then
      some { s with mapRun := true, mapsTaken := s.mapsTaken + 1 }
    else none
  | .mapFinish =>
    if s.mapRun = true ∧ 0 < s.queue then
      some { s with mapRun := false, queue := s.queue - 1, regSent := s.regSent + 1 }
    else none

/-- States the system can be in. No counterpart in /repo. -/
inductive Reach (cfg : Cfg) (d : Data) : Node → Prop where
  | init : Reach cfg d {}
  | step {s s' : Node} (e : Ev) : Reach cfg d s → step cfg d s e = some s' → Reach cfg d s'

/-- `Later cfg d s s'`: events lead from `s` to `s'`. No counterpart in /repo. -/
inductive Later (cfg : Cfg) (d : Data) : Node → Node → Prop where
  | refl (s : Node) : Later cfg d s s
  | step {s s' s'' : Node} (e : Ev) : Later cfg d s s' → step cfg d s' e = some s'' → Later cfg d s s''

/-- `Works cfg d n s s'`: `n` internal events lead from `s` to `s'`. No counterpart in /repo. -/
inductive Works (cfg : Cfg) (d : Data) : Nat → Node → Node → Prop where
  | refl (s : Node) : Works cfg d 0 s s
  | step {n : Nat} {s s' s'' : Node} (e : Ev) : Works cfg d n s s' → e.external = false → step cfg d s' e = some s'' →
      Works cfg d (n + 1) s s''

/-- No internal event can happen. No counterpart in /repo. -/
def Quiet (cfg : Cfg) (d : Data) (s : Node) : Prop := ∀ e : Ev, e.external = false → step cfg d s e = none

/-- A list of events. No counterpart in /repo. -/
def run (cfg : Cfg) (d : Data) : List Ev → Node → Option Node
  | [], s => some s
  | e :: es, s =>
    match step cfg d s e with
    | none => none
    | some s' => run cfg d es s'

end Schedule

end Serpent
