import Verif.Model.LidarPipeline
import Verif.Model.Parameters

/-!
# Model of the topics that the components subscribe to and advertise, and of the launch files that connect them

The constructors of the components, the nodes serpent/src/nodes/*.cpp, serpent/scripts/metrics_node.py and the launch files in
serpent/launch and pointcloud_tools/launch. Simplifications: a transport of images (`image_transport`) is one topic; queue sizes,
latching, services, transforms (tf) and the visualisation tools are left out; of the types of messages only their name counts, for
clouds of PCL also the type of the points.
-/

namespace Serpent

namespace Wiring

open Params

/-- The points of a cloud: `sensor_msgs::PointCloud2` or `pcl::PCLPointCloud2` (whatever its fields are), `pcl::PointXYZ`, or
`PointNormal` without unit vectors and `PointNormalUnit` with them. Of the topics of the constructors cited below. -/
inductive Points where
  | any | xyz | normal (unit : Bool)
deriving DecidableEq, Repr

/-- The types of messages. Of the topics of the constructors cited below. -/
inductive Msg where
  | imu | cloud (points : Points) | image | cameraInfo | fluidPressure | imuArray | odometry | pose | imuBiases | transform | path
  | features | trackerStatistics | poseGraph | dictionaries | summaryStatistics
deriving DecidableEq, Repr

/-- A topic, with the type of message of the subscriber or publisher. Of the constructors cited below. -/
abbrev Port := String × Msg

/-- The subscribers and publishers of one object; names are relative to the namespace of its node handle, `serpent`. One for
each of the constructors cited below. -/
structure Component where
  subscribes : List Port
  advertises : List Port
deriving DecidableEq

/-- `l` if the condition holds. For node.cpp:35-72. -/
def onlyIf (b : Bool) (l : List Port) : List Port := if b then l else []

/-- Constructor of `Frontend`, frontend.cpp:43-57, 84-93 and 132-136. -/
def frontendComponent (f : FrontEnd) : Component where
  subscribes :=
    [("input/imu", .imu), ("optimisation/imu_biases", .imuBiases), ("optimisation/odometry", .odometry),
      ("formatter/formatted_pointcloud", .cloud .any)] ++
    onlyIf f.stereo [("input/stereo/left/image", .image), ("input/stereo/right/image", .image),
      ("input/stereo/left/camera_info", .cameraInfo), ("input/stereo/right/camera_info", .cameraInfo)] ++
    onlyIf f.barometer [("input/barometer", .fluidPressure)]
  advertises :=
    [("frontend/deskewed_pointcloud", .cloud .any), ("frontend/imu_s2s", .imuArray), ("frontend/initial_odometry", .odometry),
      ("output/odometry", .odometry), ("output/pose", .pose)] ++
    onlyIf f.stereo [("stereo/left/image", .image), ("stereo/right/image", .image), ("stereo/left/camera_info", .cameraInfo),
      ("stereo/right/camera_info", .cameraInfo)] ++
    onlyIf f.barometer [("frontend/barometer", .fluidPressure)]

/-- Constructor of `Optimisation`, optimisation.cpp:53-62, 86-98 and 104-106. -/
def backendComponent (b : BackEnd) : Component where
  subscribes :=
    [("frontend/imu_s2s", .imuArray), ("frontend/initial_odometry", .odometry)] ++
    onlyIf b.registration [("registration/transform", .pose)] ++
    onlyIf b.stereo.isSome [("stereo/features", .features)] ++
    onlyIf b.barometerBias.isSome [("frontend/barometer", .fluidPressure)]
  advertises :=
    [("optimisation/imu_biases", .imuBiases), ("optimisation/imu_transform", .transform), ("optimisation/odometry", .odometry),
      ("output/path", .path), ("optimisation/path_changes", .path)] ++
    onlyIf b.publishStereoPoints [("debug/stereo_points", .cloud .xyz)]

/-- Constructor of `PointcloudFormatter`, pointcloud_formatter.cpp:12-16. -/
def formatterComponent : Component where
  subscribes := [("input/pointcloud", .cloud .any)]
  advertises := [("formatter/formatted_pointcloud", .cloud .any)]

/-- A filter, the computation of unit vectors, or the normal estimation, with the topics of `Lidar.lidarNode`; pointcloud_filter.cpp,
pointcloud_add_unit_vectors.cpp:11-13, pointcloud_normal_estimation-inl.hpp:14-17. All subscribe to `pcl::PCLPointCloud2`; the normal
estimation publishes points with normals, the others publish `pcl::PCLPointCloud2`. -/
def linkComponent (unit : Bool) (l : Ros.Link Lidar.Stage) : Component where
  subscribes := [(l.input, .cloud .any)]
  advertises := [(l.output, .cloud (if l.stage = .normals then .normal unit else .any))]

/-- Constructor of `Mapping`, mapping-inl.hpp:44-50. -/
def mappingComponent (unit : Bool) : Component where
  subscribes := [("normal_estimation/pointcloud", .cloud (.normal unit)), ("optimisation/path_changes", .path)]
  advertises := [("mapping/local_map", .cloud (.normal unit)), ("output/global_map", .cloud (.normal unit)),
    ("output/pose_graph", .poseGraph)]

/-- Constructor of `Registration`, registration-inl.hpp:75-82 and 180-198. -/
def registrationComponent (r : Reg) : Component where
  subscribes := [("normal_estimation/pointcloud", .cloud (.normal r.unit)), ("optimisation/imu_transform", .transform),
    ("mapping/local_map", .cloud (.normal r.unit))]
  advertises :=
    [("registration/transform", .pose)] ++
    onlyIf r.publishClouds [("debug/previous_pointcloud", .cloud (.normal r.unit)),
      ("debug/current_pointcloud", .cloud (.normal r.unit)), ("debug/imu_guess_pointcloud", .cloud (.normal r.unit)),
      ("debug/s2s_transformed_pointcloud", .cloud (.normal r.unit)), ("debug/s2m_transformed_pointcloud", .cloud (.normal r.unit))] ++
    onlyIf r.publishCloudsAlt [("debug/s2s_transformed_pointcloud_alt", .cloud (.normal r.unit)),
      ("debug/s2m_transformed_pointcloud_alt", .cloud (.normal r.unit))]

/-- Constructor of `StereoFactorFinder`, stereo_factor_finder.cpp:179-207. -/
def stereoComponent (t : StereoTracking) : Component where
  subscribes := [("stereo/left/image", .image), ("stereo/right/image", .image), ("stereo/left/camera_info", .cameraInfo),
    ("stereo/right/camera_info", .cameraInfo)]
  advertises :=
    [("stereo/features", .features)] ++
    onlyIf t.publishStats [("stereo/statistics", .trackerStatistics)] ++
    onlyIf t.publishIntermediate [("stereo/left/extracted_keypoints/image", .image),
      ("stereo/right/extracted_keypoints/image", .image), ("stereo/left/sof_matches/image", .image),
      ("stereo/right/sof_matches/image", .image), ("stereo/stereo_filtered_matches/image", .image),
      ("stereo/new_matches/image", .image), ("stereo/tracked_matches/image", .image)] ++
    onlyIf t.publishPoints [("stereo/track_points", .cloud .xyz)]

/-- The components for pointclouds before registration, node.cpp:35-58, frontend_node.cpp:23-52. -/
def lidarFrontComponents (p : Server) : Option LidarFront → Outcome (List Component)
  | none => .ok []
  | some f => Lidar.lidarNode (filterConfig p) (p.str "registration_covariance/method" "CENSI")
      (p.str "registration_covariance/point_covariance/method" "RANGE") >>= fun links => .ok (links.map (linkComponent f.unit))

/-- The components for pointclouds from mapping on, node.cpp:60-67, backend_node.cpp:24-37: `Mapping<PointNormalUnit>` and
`Registration<PointNormalUnit>` with unit vectors, else `Mapping<PointNormal>` and `Registration<PointNormal>`. -/
def lidarBackComponents : Option LidarBack → List Component
  | none => []
  | some b => [mappingComponent b.registration.unit, registrationComponent b.registration]

/-- node.cpp:70-72, backend_node.cpp:38-40. -/
def stereoComponents : Option StereoTracking → List Component
  | none => []
  | some t => [stereoComponent t]

/-- What a running process subscribes to and advertises, with the names of the network. For serpent/src/nodes/*.cpp and
serpent/launch. -/
structure Node where
  subscribes : List Port
  advertises : List Port
deriving DecidableEq

/-- The name of a topic of a node handle `nh("serpent")` in the network: the remappings of the launch file are looked up, with
names relative to the namespace of the node, which is `/`. For serpent.launch:3-9 and the other launch files cited below. -/
def resolve (remaps : List (String × String)) (topic : String) : String :=
  (remaps.lookup ("serpent/" ++ topic)).getD ("/serpent/" ++ topic)

/-- A process with some components. For serpent/src/nodes/*.cpp. -/
def node (remaps : List (String × String)) (components : List Component) : Node where
  subscribes := (components.flatMap Component.subscribes).map fun t => (resolve remaps t.1, t.2)
  advertises := (components.flatMap Component.advertises).map fun t => (resolve remaps t.1, t.2)

/-- The arguments of the launch files for topics, serpent.launch:3-9. -/
structure Topics where
  imu : String
  pointcloud : String
  leftImage : String
  rightImage : String
  leftInfo : String
  rightInfo : String
  barometer : String

/-- serpent.launch:67-73, serpent_frontend.launch:57-63. -/
def inputRemaps (a : Topics) : List (String × String) :=
  [("serpent/input/imu", a.imu), ("serpent/input/pointcloud", a.pointcloud), ("serpent/input/stereo/left/image", a.leftImage),
    ("serpent/input/stereo/right/image", a.rightImage), ("serpent/input/stereo/left/camera_info", a.leftInfo),
    ("serpent/input/stereo/right/camera_info", a.rightInfo), ("serpent/input/barometer", a.barometer)]

/-- serpent_stereo_pipeline.launch:59-62. -/
def stereoRemaps (a : Topics) : List (String × String) :=
  [("serpent/stereo/left/image", a.leftImage), ("serpent/stereo/right/image", a.rightImage),
    ("serpent/stereo/left/camera_info", a.leftInfo), ("serpent/stereo/right/camera_info", a.rightInfo)]

/-- The process of serpent.launch, node.cpp. -/
def singleNode (a : Topics) (p : Server) (s : Single) : Outcome Node :=
  lidarFrontComponents p (s.lidar.map Prod.fst) >>= fun l =>
  .ok (node (inputRemaps a) ([frontendComponent s.frontend, backendComponent s.backend, formatterComponent] ++ l ++
    lidarBackComponents (s.lidar.map Prod.snd) ++ stereoComponents s.stereo))

/-- The process of serpent_frontend.launch, frontend_node.cpp. -/
def frontNode (a : Topics) (p : Server) (s : FrontProcess) : Outcome Node :=
  lidarFrontComponents p s.lidar >>= fun l =>
  .ok (node (inputRemaps a) ([frontendComponent s.frontend, formatterComponent] ++ l))

/-- The process of serpent_backend.launch, backend_node.cpp. -/
def backNode (s : BackProcess) : Node :=
  node [] ([backendComponent s.backend] ++ lidarBackComponents s.lidar ++ stereoComponents s.stereo)

/-- The process of serpent_stereo_pipeline.launch, stereo_pipeline_node.cpp. -/
def pipelineNode (a : Topics) (t : StereoTracking) : Node := node (stereoRemaps a) [stereoComponent t]

/-- metrics_node.py:19-32. -/
def metricsNode : Node where
  subscribes := [("/serpent/output/path", .path), ("/serpent/output/pose", .pose), ("/serpent/registration/transform", .pose)]
  advertises := [("/serpent/metrics", .dictionaries)]

/-- The two nodes of analyse_track_distances.launch, started by serpent.launch:42-44 with the deskewed clouds as target:
pointcloud_compute_distances.launch:6-13 and pointcloud_analyser.launch:5-8. -/
def distancesNode : Node where
  subscribes := [("/serpent/stereo/track_points", .cloud .xyz), ("/serpent/frontend/deskewed_pointcloud", .cloud .xyz)]
  advertises := [("/serpent/stereo/track_points_with_distances", .cloud .any)]

/-- See `distancesNode`. Source: pointcloud_analyser.launch:5-8. -/
def analyserNode : Node where
  subscribes := [("/serpent/stereo/track_points_with_distances", .cloud .any)]
  advertises := [("/serpent/stereo/track_points_with_distances/statistics", .summaryStatistics)]

/-- The topics that record.launch:6-8 records. -/
def recorded : List String :=
  ["/serpent/optimisation/odometry", "/serpent/optimisation/imu_biases", "/serpent/registration/transform",
    "/serpent/stereo/statistics", "/serpent/stereo/track_points_with_distances/statistics", "/serpent/output/path"]

/-- The topics of this system that serpent/rviz/serpent.rviz shows. -/
def shownByRviz : List String :=
  ["/serpent/debug/current_pointcloud", "/serpent/debug/imu_guess_pointcloud", "/serpent/debug/previous_pointcloud",
    "/serpent/debug/s2m_transformed_pointcloud", "/serpent/debug/s2s_transformed_pointcloud", "/serpent/debug/stereo_points",
    "/serpent/filter/filtered_pointcloud", "/serpent/formatter/formatted_pointcloud", "/serpent/frontend/deskewed_pointcloud",
    "/serpent/mapping/local_map", "/serpent/normal_estimation/pointcloud", "/serpent/optimisation/odometry",
    "/serpent/output/global_map", "/serpent/output/odometry", "/serpent/output/path",
    "/serpent/stereo/left/extracted_keypoints/image", "/serpent/stereo/left/image", "/serpent/stereo/left/sof_matches/image",
    "/serpent/stereo/new_matches/image", "/serpent/stereo/right/extracted_keypoints/image", "/serpent/stereo/right/image",
    "/serpent/stereo/right/sof_matches/image", "/serpent/stereo/stereo_filtered_matches/image", "/serpent/stereo/track_points",
    "/serpent/stereo/tracked_matches/image"]

/-- The images of this system that serpent/perspective/serpent_stereo_pipeline.perspective shows. Lines of
serpent/perspective/serpent_stereo_pipeline.perspective. -/
def shownByRqt : List String :=
  ["/serpent/stereo/distance_filtered_matches/image", "/serpent/stereo/left/extracted_keypoints/image", "/serpent/stereo/left/image",
    "/serpent/stereo/left/merged_keypoints/image", "/serpent/stereo/left/sof_matches/image", "/serpent/stereo/new_matches/image",
    "/serpent/stereo/raw_matches/image", "/serpent/stereo/right/extracted_keypoints/image", "/serpent/stereo/right/image",
    "/serpent/stereo/right/merged_keypoints/image", "/serpent/stereo/right/sof_matches/image",
    "/serpent/stereo/stereo_filtered_matches/image", "/serpent/stereo/tracked_matches/image"]

/-- pointcloud_range_filter.launch:7-12, started with values for the arguments `input` and `output`;
pointcloud_range_filter.cpp subscribes to `~input` and advertises `~output`. -/
def rangeFilterNode (input _output : String) : Node where
  subscribes := [(input, .cloud .any)]
  advertises := [(input ++ "/filtered", .cloud .any)]

end Wiring

end Serpent
