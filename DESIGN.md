# Formal model of serpent in Lean 4

The model lives in `lean/Verif/`. Each area has up to three kinds of file:

* `Verif/Model/<Area>.lean`: the model. Every definition cites the file and lines of `/repo` it models and says
  where it simplifies.
* `Verif/Lemmas/<Area>.lean`: helper lemmas.
* `Verif/Props/<Area>.lean`: a small specification (written without the model's helpers where that is possible), the
  property theorems, and beside each theorem an `example` showing that a concrete non-trivial case meets its hypotheses.

## Outcomes

C++ functions are modelled as total Lean functions whose result distinguishes three outcomes: `ok`, `throws` (an
exception leaves the function) and `ub` (undefined behaviour: out-of-range access, dereferencing an end iterator,
reading an uninitialised variable, unbounded recursion). Methods of a stateful object return the outcome *and* the state
of the object, so a method that throws after changing the object is modelled as such. `assert` is modelled as *disabled*
(release build), unless stated otherwise.

## Numbers

`int`, `unsigned`, `std::size_t` are modelled by unbounded `Int`/`Nat` unless the property is about wrap-around.
`ros::Time`/`ros::Duration` are integers (nanoseconds). `float`/`double` computations are idealised as real numbers
(or as an arbitrary ordered field): no claim is made about rounding, NaN or infinity unless stated.

## Plan per property

| id | what is modelled | how it is proved |
|----|------------------|------------------|
| C01 | named key table of the graph manager | refinement to "value last set + number of increments since" by induction over histories |
| C02 | `minimum_key` loop | characterisation of the fold as a minimum |
| C03 | values container, symbol encoding, setters/getters | refinement to a finite map by induction over histories |
| C04 | values and new-values containers | invariant by induction over histories |
| C05 | factor containers and extraction | invariant (conservation) by induction over histories |
| C06 | factor queries | refinement to a filter of the creation log |
| C07 | `add_values`, `values(first,last)` with end-iterator reads as `ub` | negation with witness; partial theorem for the defined case |
| C08 | `extract_new_values` | exact characterisation; negation for re-acquired landmarks |
| C09 | stereo factor creation | invariant over frame sequences: count of factors per (pose, landmark) |
| C10 | same | negation with witness, partial for consecutive keys |
| C11 | landmark id lists | invariant over histories |
| C12 | timestamp map | refinement, algebra |
| C13 | `update_from_values` | exact characterisation |
| C14 | ISAM2 manager with an arbitrary optimiser (parameter) | direct |
| C15 | ISAM2 manager | invariant over disciplined histories |
| C16 | marginalisation bookkeeping | invariant; negation for landmarks |
| C17 | feature message conversion | exact characterisation |
| C18 | `add_registration_factor` | negation (inverted test), exact characterisation of what it does; chain from the covariance estimate through the published message to the test (RegistrationChain) |
| C19 | callbacks as programs over lock/unlock/wait/throw | negation with witnesses; partial for exits without exception or shutdown |
| C20 | back end as a transition system with guards | invariant over all schedules |
| C21 | barometer callback | invariant over histories |
| C22 | path conversion | exact characterisation |
| C23 | front end state-time selection | invariant over message sequences |
| C24 | barometer synchroniser | invariant over interleavings; negation for the empty buffer |
| C25 | IMU array selection | exact characterisation under stamp order |
| C26 | preintegration bookkeeping | invariant over interleavings |
| C27 | `interpolated_imu` | exact characterisation |
| C28 | `integrate_imu` | exact characterisation by induction |
| C29 | interpolation | real algebra |
| C30 | `delete_old_measurements` | induction |
| C31 | `protected_sleep` as a transition system against an environment | induction over schedules |
| C32 | `should_add_to_map` | decision logic over reals |
| C33 | `extract_past_frames` | exact characterisation, negation for the read before the first frame |
| C34 | `extract_nearby_frames` with an arbitrary nearest-neighbour search | invariant over histories, negation for duplicate stamps |
| C35 | `update_map` | exact characterisation |
| C36 | frame tree and lookups over a group of rigid transforms | induction over the tree |
| C37 | frame tree construction | induction over the tree |
| C38 | covariance reordering | entrywise, `Matrix` algebra |
| C39 | adjoint, covariance change, composition | `Matrix` algebra; composition against least squares (Spec/Gaussian), induction over chains |
| C40 | relative transforms | group algebra; trace for the angle |
| C41 | skew helpers | `Matrix` algebra; negation with witness |
| C42 | symmetry/validity tests | exact characterisation of the loops |
| C43 | rates | real algebra; injectivity of the rotation vector below half a turn |
| C44 | polar coordinates | negation with witness, partial |
| C45 | point covariance rotation | `Matrix` algebra |
| C46 | conversions | round trip |
| C47 | multi-array conversion | round trip; negation for reuse |
| C48 | pose composition | induction over the sequence |
| C49 | IMU interpolation | real algebra |
| C50, C51 | stereo tracker with arbitrary vision primitives | invariant over frame sequences; `C50_range`, `C50_no_overflow` bound the ids and frame numbers, which are `int` in the code |
| C52 | match filters | exact characterisation |
| C53, C54 | matcher | exact characterisation of the scan; negation for the ratio test |
| C55 | cost functions with uninitialised accumulators as `ub` | direct; negation |
| C56 | stereo equations | field algebra; negation (out-of-bounds read) |
| C57–C62 | byte-level pointcloud buffers | exact characterisation, non-interference; negations for padding etc. |
| C63 | topic graph | decision over the whole configuration table plus induction over messages; negation for all-disabled |
| C64 | registration queues | invariant over interleavings |
| C65 | linearised ICP models | exact second-order expansion of the cost |
| C66, C67 | covariance formulas; costs that the registration minimises | `Matrix` algebra; negation with witness; the covariance is J Σ Jᵀ for the derivative J of the local minimiser, which exists by the implicit function theorem |
| C68 | image operations | group laws, coordinates |
| C69 | option names | case analysis |
| C70 | timestamp repair | induction |
| C71 | nonlinear ICP models | exact derivative identities (large generated formulas; may stay partial) |
| C72 | front end, back end, registration, mapping and tracker as one transition system with a limited number of threads (`Model/Scheduling`) | counter invariants over all schedules, a decreasing measure, and stuck-state invariants for the negations |
| C73, C74, C77–C79 | front end as a transition system of sections between mutex operations (`Model/FrontEnd`) | invariants over all interleavings |
| C75, C76 | same | partial theorem under explicit conditions on stamps; witnesses for coincident and late stamps |
| C80 | `safe_normalise` | real algebra |
| C81, C82 | `PrecomputedTransformComponents`, cloud transformation | exponential map of rotations, pointwise; negations for zero rotations and for the copying mode |
| C83, C84 | map services and local map extraction | invariant over histories, rigid transform algebra |
| C85 | frame broadcaster | exact set of transforms; negation for moving frames |
| C86 | matrix parameters | exact characterisation |
| C87 | setters of the distance filter with uninitialised members as `ub` | negation for all inputs |
| C88 | keypoint matcher's search | exact characterisation of the loop |
| C89–C92 | feature tracker with arbitrary vision functions | invariant over frame sequences |
| C93, C94 | stereo node, image ownership | invariant over histories; negations |
| C95 | byte order of fields | negation, partial |
| C96 | unit vectors | exact characterisation through the byte model |
| C97 | registration configuration | decision over the whole configuration |
| C98, C99 | registration callbacks, published message | invariant over interleavings; `Matrix` algebra |
| C100 | `check_normals` | induction over points |
| C101 | formatter | exact characterisation |
| C102 | correspondences | exact characterisation with an arbitrary search |
| C103–C105 | camera nodes | exact characterisation, induction over sequences |
| C106–C108 | `integrate_imu`, `imu_transform`, `odometry_to_tf`, `imu_analysis` | induction over histories |
| C109 | `eigen_gtsam`, `ros_conversion` | round trips |
| C110 | `compute_distances` | exact characterisation against an independent nearest-point specification |
| C111 | metrics node | histories of callbacks |
| C112–C114 | file converter, point types, analyser | histories of requests; round trips |
| C115 | `Model/Scheduling` | invariant over all schedules; negation without registration factors |
| C116–C118 | operations of all callbacks on mutexes and members (`Model/Locks`) | lock-order invariant over all interleavings; lock-set invariant; shutdown negation |
| C119 | recomputing a trajectory, relative poses, length (Matlab) | induction over the poses with the group laws of rigid motions |
| C120 | interpolation with a search index kept between queries | loop invariant; independent specification of the reference at a time |
| C121 | pose and vector errors, norms, report | induction; equivalences for zero errors; invariance under rigid motions |
| C122 | alignment by gradient steps | loop invariants; derivative of the loss along a rotation; negations |
| C123, C124 | statistics of the stereo tracker (Matlab) | invariant of the map over frames; link with the tracker's model |
| C125 | all reads of the parameter server, by component; tables of the reads and of the configuration files | theorem per component for all values; congruence of every process in the table of reads |
| C126 | checks and conversions of words in all constructors; `main` of the four nodes | equivalence of starting and a separate list of conditions |
| C127 | defaults of the reads, values of the configuration files | congruence, and a comparison of the two tables in the kernel |
| C128 | reads that are repeated in several components; split nodes | decomposition of the processes |
| C129 | scatter plot of errors against covariances; `eig` is a parameter with a contract | eigenvalues of ascending diagonal matrices; negations for every lawful `eig` |
| C130 | velocity report, time bounds, loops over odometries | reduction to C120/C121; neighbours in a window of an increasing list |
| C131 | advertised and subscribed topics of all components with their types and conditions; remaps of the launch files | sublists of one table without repeated names; case analysis of the options; counts of subscribers; negations |
| C132 | all sections of the front end, exceptions and undefined behaviour | per section from the invariants of the reachable states (buffered measurements, position of the states), exact characterisations of C25, C27, C28; negation by a run; with the check of the covariances of C140 in place of an abstract one (ImuChain) |
| C133 | skew transform, states of the sweep, deskewed cloud (`Model/Motion`; GTSAM's prediction is a parameter) | algebra of rigid transforms; C28 for the measurements, C61 for the points; negations for turned and displaced lidars; on the robots of the data sets: right for ue4_missions, wrong for the snowboard (every straight motion that is not sideways) and the simulator (every rotation that moves the lidar) |
| C134 | guess of the back end, reading by the registration, result, new pose | algebra of rigid transforms, C46 for the messages |
| C135–C137, C139 | messages that front end and back end exchange, field by field | unfolding and C46; exact conditions for the fields that are wrong |
| C138 | stereo stamps | arithmetic |
| C140 | `check_valid`, `update_preintegration_params`, overwriting, gravity | C42, positive definiteness |
| C141 | formulas of degeneracy_analysis.m, `Verif/Model/Degeneracy.lean`; the files for the linearised models, `Verif/Model/DegeneracyFiles.lean` | equal to twice the matrices of C65, which are second derivatives |
| C142 | chain of alignments, path and map, `Verif/Model/Odometry.lean` | induction over the alignments; composition of C134, C35, C83, C84 |
| C143 | baseline as an IEEE quotient (`Verif/Basic/Division.lean`), calibration of the back end, distance filter of the feature finder | case analysis of the callback; invariant over stereo histories; negation by a run |
| C144 | synchronisers by exact time with any number of inputs (`Model/Synchroniser.lean`); specification by the history of messages alone | induction over histories; the limited synchroniser is the unlimited one, trimmed |
| C145 | messages waiting per subscription in the system of waiting callbacks (`Model/QueueSizes.lean`); subscription queues | counters invariant of C72; induction over events; negation by runs |
| C146 | `operator==` of the values of eigen_ros with Eigen's `isApprox` (`Model/Values.lean`) | from the sums of squares; negation by poses on an axis |
| C147 | `rpy` with Eigen 3.3's `eulerAngles(0, 1, 2)` (`Model/Values.lean`); specification: Rodrigues' rotations about the axes | polar form of the arc tangent and the cofactors of a rotation matrix |
| C148 | the configuration files of the data sets as tables (`Spec/DataSets.lean`), their robots, image regions and camera infos (`Spec/Robots.lean`), read by the existing models (Parameters, BodyFrames, Camera, Motion, Scheduling) | one kernel computation per mission, extended to all threads and OpenCV versions by showing what these change; the rest from C36, C37, C72, C104, C128 and C140 |
| C149 | the launch files of the data sets: topics, the nodes for the cameras, the recorded topics (`Model/Launch.lean`, `Spec/Launch.lean`), on top of the model of C131 | the subscriptions of the system from C131; the nodes for the cameras publish outside of its namespace, so the publishers of both parts add up; concrete topics by computation |
| C150 | the region of interest of the stereo tracker: the mask kept between calls, its creation with the check of OpenCV, the detector with the mask as an argument (`Model/StereoMask.lean`), around the model of `process` | induction over frames with the masks that can occur (none, the region, no pixel) as invariant; refinement to the tracker with a detector that is given exactly the region; the regions of the missions by computation |
| C151 | both callbacks of the registration with the clouds published for debugging, `transform_pointcloud` for the three kinds of point types (`Model/RegistrationDebug.lean`) | induction over events; the state is that of the model of C64 (erasure), so that its invariant gives the pairing with scans and maps; pointwise motion from the loops |
| C152 | `process` with `intermediate_images`, the calls of `drawKeypoints` and `drawMatches` without pixels, flow matches (`Model/StereoDrawing.lean`) | step by step equality with `process`, induction over frames; negation by an invariant (no previous images) and a run |
| C153 | stereo points in `publish`, `to_pcl` (`Model/StereoPoints.lean`) | from C11 through the link of manager histories to graph histories; step by step equality with `publish` |
| C154 | the handlers of `optimise` with `precrash_operations` and `print_information_at_key` without the printed text (`Model/Crash.lean`) | invariant over histories: every key of a factor has a value once its states are set; case analysis of the handlers |
| C155 | the callbacks of the back-end node and their interleavings (`Model/BackEnd.lean`), factors as kind and keys, values as a map | invariant over all node runs: each section leaves only factors whose states have values; sections between waits are walked with the states still to be set as a parameter (`Lemmas/BackEndValued.lean`) |
| C156 | the callbacks of the back-end node and their interleavings, with any optimiser that records the calls it accepted (`Spec/BackEndHistory.lean`) | invariant over all node runs: the graph manager is reached by a history of successful calls whose stereo frames are below the named key (`Lemmas/BackEndHistory.lean`); then C05, C15 and C16 with C155 for their hypotheses; every run of the node is a run with a recording optimiser (`Lemmas/BackEndForget.lean`) |
| C157 | as C156; the selection of the variables to marginalise by index (`Model/GraphManager.lean`) | induction over histories from C08 (what an extraction returns) and the keys selected; for the node the invariant that the stereo key is at most `k` when `optimise(k)` is called (`Lemmas/BackEndSched.lean`) |
| C158 | as C156; the window set by the constructor of the back end (`Model/BackEnd.lean`) | induction over histories that optimise the keys 0, 1, … with the window on (`Props/WindowNode.lean`), from C16 for one step and C08; for the node the invariants that the calls of `optimise` are for 0, 1, …, that all poses up to the key have values, that with the IMU on every key up to it has its IMU factor (whose velocities and biases have values by C155), and that the window never changes (`Lemmas/BackEndHistory.lean`, `Lemmas/BackEndSched.lean`) |

## Trusted base

* Lean's kernel, and the axioms `propext`, `Classical.choice`, `Quot.sound`. No theorem uses others; `#print axioms` was run for every
  theorem named in MANIFEST.json (script: `tools/axioms.sh`).
* The reading of the C++ and Python sources: no code was run, the model is tied to the source by the citations only.
* The behaviour of external libraries as stated in the model comments: `std::map`, `std::deque`, `std::list`,
  `gtsam::Values`, `gtsam::Symbol`, `NonlinearFactorGraph`, Eigen's quaternions, OpenCV's rotations and flips, roscpp's rule that callbacks
  of one subscription do not overlap. ISAM2, preintegration, optical flow, feature detection, kd-tree search, PCL registration, filters
  and file formats are *parameters* of the model: the theorems hold for every behaviour of them (within the contract stated).

## What is modelled

| source | model |
|--------|-------|
| serpent/src/back_end/graph_manager.cpp, graph_manager.hpp, graph_manager-inl.hpp | GraphManager, GraphHistory, IsamHistory |
| serpent/src/back_end/optimisation.cpp | BackEnd, Motion, Scheduling, QueueSizes, Locks |
| serpent/src/front_end/frontend.cpp | FrontEnd, Motion, Scheduling, QueueSizes, Synchroniser, Locks |
| serpent/src/front_end/lidar/*.cpp, include/serpent/front_end/lidar/* | LidarOptions, LidarPipeline, Formatter, Registration, RegistrationDebug, RegistrationCovariance, Icp*, CloudTransform, PclCloud |
| serpent/src/front_end/stereo/*.cpp, include/serpent/front_end/stereo/* | Stereo, StereoTracker, StereoMask, LidarOptions |
| serpent/include/serpent/mapping/* | Mapping, MappingReal, Odometry, Locks |
| serpent/src/utils/*.cpp | Utilities, Motion, NavigationNodes |
| serpent/src/nodes/*.cpp | LidarPipeline, RosNetwork, Scheduling |
| serpent/scripts/metrics_node.py | Metrics |
| eigen_ext | EigenExt, Quaternion |
| eigen_ros | EigenRos, Values, Arrays, BodyFrames, Utilities, Quaternion |
| eigen_gtsam | NavigationNodes |
| pointcloud_tools | PclCloud, PclDeskew, PointTypes, CloudTransform, ComputeDistances, FileConverter, RegistrationCovariance |
| camera_tools | Camera |
| imu_tools, navigation_tools | NavigationNodes, EigenRos (combine_transforms) |
| snowboard/scripts/repair_ouster_timestamps.py | RepairTimestamps |
| degeneracy_analysis/*.m, *_linear.txt | Degeneracy, DegeneracyFiles |
| plotting/*.m: pose and twist errors, alignment, interpolation, covariance scatter, track statistics | Trajectory, Evaluation, TrackStatistics |
| snowboard, ue4_missions, simulator_prcp_missions: config/serpent, config/camera_tools, camera infos, number of threads | Spec/DataSets, Spec/Robots |
| snowboard/launch, ue4_missions/launch, simulator_prcp_missions/launch: topics and nodes of Serpent, camera_tools and image_undistort | Launch |
| serpent/launch/*.launch, topics named in serpent/rviz/*.rviz and the rqt perspective; pointcloud_tools/launch | Wiring, Parameters |

Not modelled: the Matlab scripts that read bags, draw or save figures (rest of `plotting`), the symbolic derivatives of `degeneracy_analysis` for the nonlinear models (the program has its own copies, which are modelled), bag files and the launch files for other programs of the data sets (snowboard, simulator_prcp_missions, ue4_missions), their files for other programs (liosam, locus, camera_calibration), tests, the pixels of drawn images,
log messages, `navigation_tools/src/integrate_imu_graph_test.cpp` (a debugging node that no CMakeLists builds), `change_twist_reference_frame` (declared
non-void, its body is empty: calling it is undefined behaviour), rounding of floating point numbers, wrap-around of `int`, memory
exhaustion, when roscpp sends what waits in a publisher's queue (any delay is possible; C145), and the numerical content of ISAM2, GTSAM factors and PCL algorithms.

## Where the code departs from the properties

Unless marked *(observation)*, each is a theorem `Cxx_fails_...` with a concrete witness (or for all inputs), beside a `_partial` theorem with
what does hold. Observations are parts of exact characterisations proved for the property, or remarks in the model's comments.

Back end and graph
* The validity test of registration covariances is inverted: messages with an invalid covariance are used, all others are refused with an exception (C18). With real numbers this refuses every result whose covariance is positive definite, among them all linear least squares estimates of the linearised models; rounding in a computed covariance can make it asymmetric and so accepted.
* `add_values`/`values(first, last)` dereference the end iterator for missing keys; landmark search matches exactly (C07).
* Re-acquired landmarks make the extraction of new values throw (C08); the factor to the previous frame is attached to key - 1 even if frames were skipped (C10).
* Landmarks are filed under their id in the list of keys to marginalise (C16); an update that throws leaves the earlier values of it applied (C13, observation).
* The barometer prior is on the key of the first pressure, not on key 0 (C21, observation). All poses are published as changed poses, changed or not (C22).
* Callbacks that lock by hand keep the mutex when they throw or the node shuts down (C19), so that shutdown can hang (C118).
* Without IMU, registration and stereo factors nothing is optimised after the first state and the front end stops (C72).

Scheduling
* `threads` is accepted from 1 upwards, but with registration factors one node needs 5 threads (4 without stereo factors); the default is 4 (C72).
* Without registration factors the back end can be faster than the front end, whose wait tests stamps for equality: it then waits forever (C72), and it reads results that are being replaced (C115, C117).
* With `only_graph_frames`, two consecutive intervals without a stereo frame stop the system (C72).

Front end
* `front()` of an empty barometer buffer (C24); an IMU array can read past the buffer's end (C25).
* Deskewing uses the mounting of the lidar in the wrong direction, so that for a lidar turned by 90 degrees points are moved to the wrong side, and a displaced lidar gets twice the lever arm (C133; this is so on the snowboard and in the simulator, not for ue4_missions); the start state of the first sweep is the initial state.
* IMU-rate odometry adds the gyroscope's bias and publishes the velocity in the map frame (C135); output/pose is the body's pose, not that of base_link (C136); unknown reference frames count as NWU, the initial angular velocity stays in the IMU's frame (C137).
* Measurements without covariances are refused unless they are overwritten; the refused covariances stay in place (C140).
* IMU measurements that arrive after the array is published are lost (C76); a stamp equal to the start or end of a sweep makes deskewing throw (C75).

Libraries
* eigen_ext: `from_skew_symmetric` accepts matrices that are not skew symmetric (C41); `is_symmetric` reads outside of matrices that are not square (C42); azimuth wrong (C44); NaN for zero rotations (C81).
* eigen_ros: conversion into a reused multi-array throws (C47); interpolation at the first time loses a known orientation if the second measurement has none, and equal stamps give the first measurement (C49); `change_frame` turns the orientation covariance the other way (observation); moving frames sent as static transforms (C85).
* pointcloud_tools: byte order ignored (C95), padded rows misread, `add_fields` overruns, in-place `filter_max` empties the cloud (C57, C59), statistics of NaN and integers (C60), casts that ignore the scale or the type (C62), times and stamps of deskewed clouds (C61); existing unit-vector fields (C96); non-finite points become finite (C82).
* camera_tools: operations are applied in alphabetical order, rotation by 0 refused (C103); only some parts of the camera info follow the image (C68).
* Timestamp repair: topics and interpolated stamps (C70). Metrics: labels, angle, torn poses (C111). File converter: latching, saves reported as done (C112). Point types: padding, integer times (C113). Analyser: empty clouds (C114).
* imu_tools, navigation_tools: covariance multiplied from one side (C107); path in another frame, first stamp 0 (C106); default transform from a frame to itself (C108).
* options: fourteen options of the configuration files are never read, so the outlier filter runs with one neighbour and zero deviations and the optical flow cannot be changed; values of the wrong type count as left out; SIFT is refused with OpenCV 5.0 to 5.3 (C125). An unknown robust estimator leaves a null pointer for the first stereo factor, an unknown reference frame means NWU, a negative number of points is undefined behaviour, a negative number of threads is close to 2³² (C126). Twenty-eight options have other values when left out, among them the noise of points that the file calls the default (C127).
* plotting: a reference of one pose and estimates out of order stop the scripts (C120); relative errors of vectors have the opposite sign of absolute ones (C121); the alignment's rotation gradient is wrong after the first iteration, and a perfect trajectory gives NaN, or is moved by the largest step in the second iteration (C122); a frame without matches stops the statistics (C123). The loss printed at the end is that before the last update (observation). The share of errors within the covariance is that of the last motion only, errors are scaled along the wrong axes unless the variances ascend from x to z without correlation, and one or two motions are an error (C129).
* front end: states after the first are sent without waiting for an IMU measurement of their time; if the back end's answer arrives first, the callback ends with an exception and the odometry is not restarted (C132).
* launch files: four images that rqt shows are never published; the argument `output` of the range filter's launch file has no effect (C131). Arguments `stereo_camera` (serpent_tunnel.launch), `robot_namespace` (split_image.launch) and `robot_type` (locus.launch) are unused (observation).

Mapping, lidar, stereo
* The past-frames extraction goes wrong for clouds older than the map (C33), repeated stamps duplicate points (C34), in the past-frame mode the second cloud dereferences a null pointer (C35), the global voxel flag is ignored (C83).
* All filters disabled: no cloud leaves `PointcloudFilter` (C63; the node avoids that). One lost map shifts all later pairs of scans and maps (C98).
* The nonlinear model can give an indefinite covariance (C66) and NaN at zero rotation (C71). The range bias keeps only the diagonal of the outer product (C67). Times already of type float are not scaled (C101). Stored correspondence indices are positions in the index list (C102).
* Costs sum into uninitialised accumulators (C55), the ratio test compares with the wrong cost (C53), `stereo_project` reads outside of a vector (C56), setters read unset members (C87), `match` flag unset near the border and the reverse search uses the mean of another window (C88), equal columns accepted (C91), first statistics unset, also if they are only printed, as all data sets do (C92, C94).
* The second handler of `optimise` rethrows a copy of type `std::exception`, so kind and message of all exceptions but the indeterminate system are lost; the diagnostics themselves throw if a factor has a state without a value (C154).
* `baseline <= 0` does not refuse the baseline of an uncalibrated camera, which is zero divided by zero (C143).
* If the first stereo frame throws, a tracker that draws its intermediate images throws at every later frame: the previous images it draws are empty (C152).
* Comparison of values of eigen_ros is not transitive and depends on the origin (C146); roll is never negative, so a small negative roll is shown as nearly half a turn, and an unknown orientation as the identity (C147).
* ue4_missions configures the middle of the stereo camera as its left camera, 5 cm off (C148).
* `StereoFeatureTracker::process` assigns the mask before it checks that the region fits: if the object is used on after the exception, images of the same size are processed without an exception and without finding anything (C150; the node itself ends with the exception).
* In simulator_prcp_missions the launch file has an argument for the stereo camera, but the frame of the left camera in the options is always that of the front camera (C149).
* Synchronised messages behind a backlog of ten are lost (C144); queues of the mapping (without scan-to-map), of pressures and of stereo features can overflow (C145). With two processes the publishers' queues of one message can overflow for IMU arrays, clouds and pressures (C145_fails_outbox); the loss of the first cloud stops the system (C145_lost_cloud).

## The repository's unit tests

The modules in lean/Verif/Conformance replay tests of the repository on the model: inputs and expected results are those of the
tests. They are tests of the model, not proofs of properties, and no claim in MANIFEST.json rests on them. Tests that say
something about all inputs are instances of theorems.

| tests | where |
|---|---|
| eigen_ext/test/{covariance,matrix,geometry}.cpp | Conformance/EigenExt |
| serpent/test/graph_manager.cpp: values, factors, IMU graphs, updates | Conformance/GraphManager |
| serpent/test/graph_manager.cpp: covariances of optimised chains | C39_marginal, C39_chain |
| serpent/test/registration_covariance.cpp: linearised models | Conformance/Pcl |
| serpent/test/registration_covariance.cpp: nonlinear models | the theorems of C71 (the entries are the derivatives) |
| serpent/test/serpent.cpp: IMU bias to and from messages (`isam2_optimise` tests GTSAM) | C109_biases |
| pointcloud_tools/test/pclpointcloud2_utilities.cpp: fields, casts, filter, maximum, scale, sizes | Conformance/Pcl |
| the same: unit vectors, deskewing; check_normals; transformed clouds | C96, C61, C100, C82 |
| eigen_ros/test/{geometry_msgs,nav_msgs,sensor_msgs,eigen_ros,statistics_msgs}.cpp | C46_* |
| eigen_ros/test/{pose,odometry,imu}.cpp | C46_*, C48_*, C49_* |

## Reading aids

* `EndRead` (graph ranges): reading the past-the-end element is undefined behaviour; the theorems say for which histories it happens.
* Front end: an execution is a sequence of sections between releasing and taking mutexes; C116/C117 justify that reading.
* `seeded/LOG.jsonl` lists the wrong programs tried against the theorems: the definition edited, the edit, the claim it breaks, the
  theorems that failed, and those tightened after a survivor.
