import Verif.Model.Scheduling

/-!
# Model of the queues between the callbacks of the whole system

The messages that wait in each queue, in terms of the counters of `Model/Scheduling.lean`, and the sizes of the queues.

Simplifications: those of `Model/Scheduling.lean`. A queue counts every message that has been published and not taken by a thread,
also while it is on its way. The filters, the addition of unit vectors and the estimation of normals count as one subscription.
-/

namespace Serpent

namespace Schedule

/-- Subscriptions of the front end, the registration, the mapping and the back end to one another. The files cited at
`capacity`. -/
inductive Topic where
  /-- frontend/initial_odometry, back end -/
  | initialOdometry
  /-- frontend/imu_s2s, back end -/
  | imuArrays
  /-- optimisation/imu_biases and optimisation/odometry, front end -/
  | biases
  /-- frontend/deskewed_pointcloud and what the filters publish, up to the estimation of normals -/
  | deskewed
  /-- normal_estimation/pointcloud, registration -/
  | scanClouds
  /-- optimisation/imu_transform, registration -/
  | scanTransforms
  /-- normal_estimation/pointcloud, mapping -/
  | mapClouds
  /-- optimisation/path_changes, mapping -/
  | mapPaths
  /-- mapping/local_map, registration -/
  | localMaps
  /-- registration/transform, back end -/
  | transforms
  /-- frontend/barometer, back end -/
  | pressures
  /-- stereo/features, back end -/
  | features
deriving DecidableEq

/-- Second argument of `subscribe`: optimisation.cpp:60-62, 83-96; frontend.cpp:51-52; pointcloud_normal_estimation-inl.hpp:21;
registration-inl.hpp:78-82; mapping-inl.hpp:49-50. -/
def capacity : Topic → Nat
  | .initialOdometry => 1
  | .imuArrays => 10
  | .biases => 10
  | .deskewed => 100
  | .scanClouds => 10
  | .scanTransforms => 10
  | .mapClouds => 10
  | .mapPaths => 10
  | .localMaps => 10
  | .transforms => 10
  | .pressures => 10
  | .features => 10

/-- Messages published and not taken. The publishers: frontend.cpp:43-45, optimisation.cpp:40-56, registration-inl.hpp:76,
mapping-inl.hpp:46, frontend.cpp:162-186. -/
def waiting (s : Node) : Topic → Nat
  | .initialOdometry => if s.poses = 0 then min s.sent 1 else 0
  -- the first of `sent` is the initial odometry; the one being handled is taken
  | .imuArrays => s.sent - max s.poses 1 - s.imuRun.toNat
  | .biases => s.opt - s.bias
  | .deskewed => s.done - s.normals
  | .scanClouds => s.normals - s.scans
  | .scanTransforms => s.poses - s.scans
  | .mapClouds => s.normals - s.maps
  | .mapPaths => s.opt - s.maps
  | .localMaps => s.maps - s.mapsTaken
  | .transforms => s.regSent - s.regKey
  | .pressures => s.baroSent - s.baroTaken
  | .features => s.features.length

/-- Second argument of `advertise`, which roscpp uses as the size of the queue of messages that are to be sent to another process:
frontend.cpp:43-45, 133; optimisation.cpp:53-57; stereo_factor_finder.cpp:179; registration-inl.hpp:75; mapping-inl.hpp:44;
pointcloud_normal_estimation-inl.hpp:17. Messages to subscribers in the same process do not go through this queue. -/
def publisherSize : Topic → Nat := fun _ => 1

/-- Topics between the process of the front end (frontend_node.cpp:17-54) and that of the back end (backend_node.cpp:17-42); the
others stay in one process. -/
def crosses : Topic → Bool
  | .initialOdometry | .imuArrays | .biases | .scanClouds | .mapClouds | .pressures => true
  | .deskewed | .scanTransforms | .mapPaths | .localMaps | .transforms | .features => false

/-- Stamps open in the synchroniser of the registration (registration-inl.hpp:73-81): it is called for the states below `scans`. -/
def openScans (s : Node) : Nat := max s.normals s.poses - s.scans

/-- Stamps open in the synchroniser of the mapping (mapping-inl.hpp:42-52). -/
def openMaps (s : Node) : Nat := max s.normals s.opt - s.maps

/-- Stamps open in the synchroniser of the front end (frontend.cpp:36, 51-54). -/
def openBiases (s : Node) : Nat := s.opt - s.bias

/-- One event when the first cloud has been lost on its way to the registration, which counts as handled (`scans` 1): the synchroniser
gets no pair for the first state, and the cloud of the second state is the first one of the callback, which only keeps it
(registration-inl.hpp:223-227, 315). All else is as in `step`. -/
def stepLost (cfg : Cfg) (d : Data) (s : Node) : Ev → Option Node
  | .scan =>
    if s.scans = 1 then
      if s.scans < s.normals ∧ s.scans < s.poses ∧ FreeBack cfg s then some { s with scans := 2 } else none
    else step cfg d s .scan
  | e => step cfg d s e

/-- `LaterLost cfg d s s'`: events after the loss lead from `s` to `s'`. No counterpart in /repo. -/
inductive LaterLost (cfg : Cfg) (d : Data) : Node → Node → Prop where
  | refl (s : Node) : LaterLost cfg d s s
  | step {s s' s'' : Node} (e : Ev) : LaterLost cfg d s s' → stepLost cfg d s' e = some s'' → LaterLost cfg d s s''

end Schedule

end Serpent
