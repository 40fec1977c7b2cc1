/-!
# Model of the mutexes and shared members of the callbacks

Sources: `serpent/src/front_end/frontend.cpp`, `serpent/src/back_end/optimisation.cpp`,
`serpent/include/serpent/front_end/lidar/registration-inl.hpp`, `serpent/include/serpent/mapping/mapping-inl.hpp`,
`serpent/src/utils/utilities.cpp`.

A callback is the sequence of its operations on mutexes and shared members, in program order. Every subscription has at most one
callback running at a time (the default of roscpp; a synchroniser of `message_filters` holds a mutex of its own around its
callback), so the running callbacks are indexed by their kind.

Simplifications (apply to the whole file):
* How often a wait goes round is arbitrary, here and for every thread: conditions are not evaluated. So all interleavings of the
  code are interleavings of the model.
* Members written in the constructor only, publishers, and `body_frames` (const) are left out. Members with the same use are one:
  `worldState` also stands for `world_odometry`, `biases` for `imu_bias_timestamp`, `barometer` for both barometer buffers,
  `graph` for `gm` and the back end's `preintegration_params`, `scan` for `previous_pointcloud` and `s2s` of the registration.
* Exceptions end the process, so they are left out.
-/

namespace Serpent

namespace Locks

/-- frontend.hpp:167-174, optimisation.hpp:146, registration.hpp:101, mapping.hpp:146. -/
inductive Mutex where
  | imuData | preintegration | stereoData | barometerData | graph | s2s | map
deriving DecidableEq

/-- Members that callbacks use, frontend.hpp:195-250, optimisation.hpp, registration.hpp, mapping.hpp. -/
inductive Var where
  | imuBuffer | lastPreint | preintegrated | worldState | biases | params | stereoBuffer | barometer
  | previousPointcloud | previousStateTime | initialised | graph | queues | scan | refinement | map
deriving DecidableEq

/-- Callbacks, named after the methods. Of frontend.cpp:43-57, optimisation.cpp:53-62, registration-inl.hpp:75-82 and
mapping-inl.hpp:44-50. -/
inductive Callback where
  /-- `Frontend::barometer_callback` -/
  | barometer
  /-- `Frontend::imu_callback` -/
  | imu
  /-- `Frontend::optimised_odometry_callback` -/
  | odometry
  /-- `Frontend::pointcloud_callback` -/
  | pointcloud
  /-- `Frontend::stereo_callback` -/
  | stereo
  /-- `Optimisation::barometer_callback` -/
  | pressure
  /-- `Optimisation::imu_s2s_callback` -/
  | imuArray
  /-- `Optimisation::initial_odometry_callback` -/
  | initialOdometry
  /-- `Optimisation::registration_callback` -/
  | registration
  /-- `Optimisation::stereo_features_callback` -/
  | features
  /-- `Registration::s2s_callback` -/
  | s2s
  /-- `Registration::s2m_callback` -/
  | s2m
  /-- `Mapping::map_update_callback` -/
  | mapUpdate
  /-- `Mapping::publish_map_service_callback` -/
  | publishMap
  /-- `Mapping::publish_pose_graph_service_callback` -/
  | publishPoseGraph
deriving DecidableEq

/-- All callbacks. Of frontend.cpp:43-57, optimisation.cpp:53-62, registration-inl.hpp:75-82 and mapping-inl.hpp:44-50. -/
def Callback.all : List Callback :=
  [.barometer, .imu, .odometry, .pointcloud, .stereo, .pressure, .imuArray, .initialOdometry, .registration, .features, .s2s, .s2m,
    .mapUpdate, .publishMap, .publishPoseGraph]

/-- Operations of a callback. As they occur in the functions cited below. -/
inductive Op where
  | lock (m : Mutex)
  | unlock (m : Mutex)
  | read (v : Var)
  | write (v : Var)
  | sleep
deriving DecidableEq

/-- `n` rounds of the loop of `protected_sleep` in which the condition holds, utilities.cpp:80-84. -/
def rounds (m : Mutex) (cond : List Op) : Nat → List Op
  | 0 => []
  | n + 1 => cond ++ [.unlock m, .sleep, .lock m] ++ rounds m cond n

/-- `protected_sleep`, utilities.cpp:74-89. `n`: rounds of the loop; `last`: whether the condition is evaluated after them
(`false`: `ros::ok()` is false). -/
def protectedSleep (m : Mutex) (already leave : Bool) (cond : List Op) (n : Nat) (last : Bool) : List Op :=
  (if already then [] else [.lock m]) ++ rounds m cond n ++ (if last then cond else []) ++ (if leave then [] else [.unlock m])

/-- `Frontend::barometer_callback`, frontend.cpp:150-160. -/
def barometer : List Op := [.lock .barometerData, .write .barometer, .unlock .barometerData]

/-- `Frontend::imu_callback`, frontend.cpp:204-255. -/
def imu : List Op :=
  [.lock .preintegration, .lock .imuData, .read .lastPreint, .write .imuBuffer, .unlock .imuData, .write .lastPreint,
    .read .params, .write .preintegrated, .read .worldState, .read .biases, .unlock .preintegration]

/-- `Frontend::interpolated_imu`, frontend.cpp:257-266. -/
def interpolatedImu : List Op := [.lock .imuData, .read .imuBuffer, .unlock .imuData]

/-- `Frontend::optimised_odometry_callback`, frontend.cpp:268-327. -/
def odometry : List Op :=
  [.lock .preintegration, .write .worldState, .read .worldState, .write .biases] ++ interpolatedImu ++
  [.write .params, .write .preintegrated, .write .lastPreint, .lock .imuData, .read .imuBuffer, .write .lastPreint,
    .write .preintegrated, .unlock .imuData, .unlock .preintegration]

/-- `Frontend::stereo_callback`, frontend.cpp:562-577. -/
def stereo : List Op := [.lock .stereoData, .write .stereoBuffer, .unlock .stereoData]

/-- First pointcloud, frontend.cpp:342, 532. -/
def firstPointcloud : List Op := [.read .previousPointcloud, .write .previousPointcloud]

/-- Start of the selection of the state time, up to the wait, frontend.cpp:342-354. -/
def selectStart : List Op := [.read .previousPointcloud, .lock .stereoData, .read .stereoBuffer]

/-- Selection of the state time, frontend.cpp:342-377. -/
def select (stereoEnabled : Bool) (n : Nat) : List Op :=
  if stereoEnabled then selectStart ++ protectedSleep .stereoData true true [.write .stereoBuffer] n true ++
    [.write .stereoBuffer, .unlock .stereoData]
  else [.read .previousPointcloud]

/-- IMU array or initial odometry, frontend.cpp:381-446. -/
def send (initialised : Bool) (n : Nat) : List Op :=
  if initialised then
    [.read .initialised, .lock .imuData, .read .previousStateTime, .read .imuBuffer, .write .imuBuffer, .unlock .imuData]
  else [.read .initialised] ++ protectedSleep .preintegration false false [.read .lastPreint] n true ++ interpolatedImu ++
    [.write .previousStateTime]

/-- The condition of the wait for biases and IMU data, frontend.cpp:456. -/
def biasCondition : List Op := [.read .biases, .read .previousStateTime, .read .lastPreint]

/-- Deskewing, frontend.cpp:448-532. -/
def deskew (barometerEnabled : Bool) : List Op :=
  [.read .params, .read .biases, .lock .imuData, .read .initialised, .read .worldState, .read .previousStateTime, .read .biases,
    .read .imuBuffer, .unlock .imuData, .read .worldState, .read .biases] ++
  (if barometerEnabled then barometer else []) ++ [.write .previousStateTime, .write .initialised, .write .previousPointcloud]

/-- `Frontend::pointcloud_callback`, frontend.cpp:329-533. -/
def pointcloud (stereoEnabled barometerEnabled initialised : Bool) (n1 n2 n3 : Nat) : List Op :=
  select stereoEnabled n1 ++ send initialised n2 ++ protectedSleep .preintegration false false biasCondition n3 true ++
    deskew barometerEnabled

/-- Short callbacks of the back end, optimisation.cpp:474-533, 694-714. -/
def graphUpdate : List Op := [.lock .graph, .write .graph, .unlock .graph]

/-- `Optimisation::barometer_callback`, optimisation.cpp:338-389. -/
def pressure (n : Nat) : List Op :=
  [.lock .graph, .read .graph] ++ protectedSleep .graph true true [.write .graph] n true ++ [.write .graph, .unlock .graph]

/-- `Optimisation::imu_s2s_callback`, optimisation.cpp:391-472. -/
def imuArray (n : Nat) : List Op :=
  [.lock .graph, .read .graph] ++ protectedSleep .graph true true [.read .graph] n true ++ [.write .graph, .unlock .graph]

/-- Rounds of `Optimisation::stereo_features_callback`, optimisation.cpp:720-754; an entry is the number of rounds of its wait. -/
def featureRounds : List Nat → List Op
  | [] => []
  | n :: ns => .read .graph :: (protectedSleep .graph true true [.read .graph] n true ++ [.write .graph] ++ featureRounds ns)

/-- `Optimisation::stereo_features_callback`, optimisation.cpp:716-756. -/
def features (ns : List Nat) : List Op := [.lock .graph] ++ featureRounds ns ++ [.unlock .graph]

/-- `Registration::s2s_callback`, registration-inl.hpp:224-313. `later`: not the first scan. -/
def s2s (later s2mEnabled : Bool) : List Op :=
  [.read .scan] ++ (if later then [.write .scan] ++ (if s2mEnabled then [.lock .s2s, .write .queues, .unlock .s2s] else []) else []) ++
    [.write .scan]

/-- `Registration::s2m_callback`, registration-inl.hpp:317-367. -/
def s2m (n : Nat) : List Op :=
  protectedSleep .s2s false true [.read .queues] n true ++ [.write .queues, .unlock .s2s, .write .refinement]

/-- `Mapping::map_update_callback`, mapping-inl.hpp:177-230. -/
def mapUpdate : List Op := [.lock .map, .write .map, .unlock .map]

/-- The services of the mapping, mapping-inl.hpp:233-282. -/
def mapService : List Op := [.lock .map, .read .map, .unlock .map]

/-- The complete runs of the callbacks. As they occur in the functions cited below. -/
inductive Run : Callback → List Op → Prop where
  | barometer : Run .barometer barometer
  | imu : Run .imu imu
  | odometry : Run .odometry odometry
  | firstPointcloud : Run .pointcloud firstPointcloud
  | pointcloud (stereoEnabled barometerEnabled initialised : Bool) (n1 n2 n3 : Nat) :
      Run .pointcloud (pointcloud stereoEnabled barometerEnabled initialised n1 n2 n3)
  | stereo : Run .stereo stereo
  | pressure (n : Nat) : Run .pressure (pressure n)
  | imuArray (n : Nat) : Run .imuArray (imuArray n)
  | initialOdometry : Run .initialOdometry graphUpdate
  | registration : Run .registration graphUpdate
  | features (ns : List Nat) : Run .features (features ns)
  | s2s (later s2mEnabled : Bool) : Run .s2s (s2s later s2mEnabled)
  | s2m (n : Nat) : Run .s2m (s2m n)
  | mapUpdate : Run .mapUpdate mapUpdate
  | publishMap : Run .publishMap mapService
  | publishPoseGraph : Run .publishPoseGraph mapService

/-- The runs that end early because the node shuts down during a wait: `return` after `protected_sleep` at frontend.cpp:360, 408, 458,
optimisation.cpp:347, 406, 728 and registration-inl.hpp:323. -/
inductive ShutdownRun : Callback → List Op → Prop where
  | select (n : Nat) (last : Bool) :
      ShutdownRun .pointcloud (selectStart ++ protectedSleep .stereoData true true [.write .stereoBuffer] n last)
  | send (stereoEnabled : Bool) (n1 n2 : Nat) (last : Bool) :
      ShutdownRun .pointcloud (select stereoEnabled n1 ++ [.read .initialised] ++
        protectedSleep .preintegration false false [.read .lastPreint] n2 last)
  | biases (stereoEnabled initialised : Bool) (n1 n2 n3 : Nat) (last : Bool) :
      ShutdownRun .pointcloud (select stereoEnabled n1 ++ send initialised n2 ++
        protectedSleep .preintegration false false biasCondition n3 last)
  | pressure (n : Nat) (last : Bool) :
      ShutdownRun .pressure ([.lock .graph, .read .graph] ++ protectedSleep .graph true true [.write .graph] n last)
  | imuArray (n : Nat) (last : Bool) :
      ShutdownRun .imuArray ([.lock .graph, .read .graph] ++ protectedSleep .graph true true [.read .graph] n last)
  | features (ns : List Nat) (n : Nat) (last : Bool) :
      ShutdownRun .features ([.lock .graph] ++ featureRounds ns ++ [.read .graph] ++
        protectedSleep .graph true true [.read .graph] n last)
  | s2m (n : Nat) (last : Bool) : ShutdownRun .s2m (protectedSleep .s2s false true [.read .queues] n last)

/-- The running callbacks: the mutexes each holds and what it still has to do. No counterpart in /repo: the threads of
node.cpp:75-82. -/
structure State where
  held : Callback → List Mutex
  todo : Callback → List Op

/-- Nothing is running. No counterpart in /repo. -/
def State.idle : State := ⟨fun _ => [], fun _ => []⟩

/-- `f` with another value at `c`. No counterpart in /repo. -/
def set {α : Type} (f : Callback → α) (c : Callback) (a : α) : Callback → α := fun c' => if c' = c then a else f c'

/-- A callback starts. By the threads of node.cpp:75-82. -/
def State.start (s : State) (c : Callback) (ops : List Op) : State := { s with todo := set s.todo c ops }

/-- The next operation of a callback. `none`: it has none, or its mutex is held. Unlocking a mutex that is not held is undefined
behaviour, and `none` as well. In the functions cited below. -/
def State.exec (s : State) (c : Callback) : Option State :=
  match s.todo c with
  | [] => none
  | .lock m :: r =>
    if Callback.all.all (fun c' => !(s.held c').contains m) then
      some ⟨set s.held c (m :: s.held c), set s.todo c r⟩
    else none
  | .unlock m :: r =>
    if m ∈ s.held c then some ⟨set s.held c ((s.held c).erase m), set s.todo c r⟩ else none
  | _ :: r => some { s with todo := set s.todo c r }

/-- States the system can be in, when callbacks run as `R` says. By the threads of node.cpp:75-82. -/
inductive Reach (R : Callback → List Op → Prop) : State → Prop where
  | idle : Reach R .idle
  | start {s : State} (c : Callback) (ops : List Op) : Reach R s → s.todo c = [] → R c ops → Reach R (s.start c ops)
  | exec {s s' : State} (c : Callback) : Reach R s → s.exec c = some s' → Reach R s'

/-- `Finishes s s'`: running callbacks lead from `s` to `s'`; none is started. By the threads of node.cpp:75-82. -/
inductive Finishes : State → State → Prop where
  | refl (s : State) : Finishes s s
  | exec {s s' s'' : State} (c : Callback) : Finishes s s' → s'.exec c = some s'' → Finishes s s''

end Locks

end Serpent
