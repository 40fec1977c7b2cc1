import Verif.Model.Wiring

/-!
# What it means that components are connected

The functions here say which publishers the subscribers of a network have. Sensors are outside of it.
-/

namespace Serpent

namespace Wiring

/-- The publishers that a topic has in a network: their types of messages. -/
def publishers (nodes : List Node) (topic : String) : List Msg :=
  (nodes.flatMap Node.advertises).filterMap fun t => if t.1 = topic then some t.2 else none

/-- All subscriptions in a network. -/
def subscriptions (nodes : List Node) : List Port := nodes.flatMap Node.subscribes

/-- The sensors, with the types of their messages. -/
def sensors (a : Topics) : List Port :=
  [(a.imu, .imu), (a.pointcloud, .cloud .any), (a.leftImage, .image), (a.rightImage, .image), (a.leftInfo, .cameraInfo),
    (a.rightInfo, .cameraInfo), (a.barometer, .fluidPressure)]

/-- The topics of the sensors are outside of the namespace of the system. -/
def Outside (a : Topics) : Prop := ∀ t ∈ sensors a, ∀ x : String, t.1 ≠ "/serpent/" ++ x

/-- Every subscription is to a sensor that sends its type of messages, and that nobody else publishes for; or there is exactly one
publisher for it, and that has its type of messages. -/
def Connected (a : Topics) (nodes : List Node) : Prop :=
  ∀ t ∈ subscriptions nodes, (t ∈ sensors a ∧ publishers nodes t.1 = []) ∨ publishers nodes t.1 = [t.2]

/-- The type of messages of the network: all clouds have the same. -/
def Msg.wire : Msg → Msg
  | .cloud _ => .cloud .any
  | m => m

/-- A node publishes on a topic. -/
def Node.Publishes (n : Node) (topic : String) : Prop := topic ∈ n.advertises.map Prod.fst

open Params in
/-- The options for pointclouds: are pointclouds registered, and the filters. -/
structure CloudOptions where
  registration : Bool
  voxel : Bool
  body : Bool
  range : Bool
  outliers : Bool
  sample : Bool
  /-- the covariance of a registration needs the directions of the points -/
  directions : Bool

open Params in
/-- See `CloudOptions`. -/
def cloudOptions (p : Server) : CloudOptions where
  registration := p.bool "optimisation/factors/registration" true
  voxel := p.bool "voxel_grid_filter/enabled" true
  body := p.bool "body_filter/enabled" false
  range := p.bool "range_filter/enabled" true
  outliers := p.bool "statistical_outlier_removal/enabled" false
  sample := p.bool "random_sample_filter/enabled" false
  directions := decide (p.str "registration_covariance/method" "CENSI" ≠ "CONSTANT") &&
    (decide (p.str "registration_covariance/point_covariance/method" "RANGE" = "RANGE") ||
      decide (p.str "registration_covariance/point_covariance/method" "RANGE" = "RANGE_BIAS"))

/-- The topics for pointclouds between front end and mapping, and when there are messages on them: a filter publishes under its own
name if another one comes after it. -/
def cloudTopics (c : CloudOptions) : List (String × Bool) :=
  [("/serpent/filter/voxel_filtered_pointcloud", c.registration && (c.voxel && (c.body || c.range || c.outliers || c.sample))),
    ("/serpent/filter/body_filtered_pointcloud", c.registration && (c.body && (c.range || c.outliers || c.sample))),
    ("/serpent/filter/range_filtered_pointcloud", c.registration && (c.range && (c.outliers || c.sample))),
    ("/serpent/filter/sor_filtered_pointcloud", c.registration && (c.outliers && c.sample)),
    ("/serpent/filter/filtered_pointcloud", c.registration && (c.voxel || c.body || c.range || c.outliers || c.sample)),
    ("/serpent/add_unit_vectors/pointcloud", c.registration && c.directions),
    ("/serpent/normal_estimation/pointcloud", c.registration)]

open Params in
/-- Every topic of the system, and the options with which it exists. -/
def topicTable (p : Server) : List (String × Bool) :=
  let registration := p.bool "optimisation/factors/registration" true
  let stereo := p.bool "optimisation/factors/stereo" true
  let barometer := p.bool "optimisation/factors/barometer" true
  let clouds := p.bool "debug/registration/publish_clouds" false
  let alt := p.bool "debug/registration/publish_clouds_alt" false
  let images := p.bool "debug/stereo/publish_intermediate_results" false
  [("/serpent/frontend/deskewed_pointcloud", true), ("/serpent/frontend/imu_s2s", true),
    ("/serpent/frontend/initial_odometry", true), ("/serpent/output/odometry", true), ("/serpent/output/pose", true),
    ("/serpent/stereo/left/image", stereo), ("/serpent/stereo/right/image", stereo), ("/serpent/stereo/left/camera_info", stereo),
    ("/serpent/stereo/right/camera_info", stereo), ("/serpent/frontend/barometer", barometer)] ++
  ([("/serpent/optimisation/imu_biases", true), ("/serpent/optimisation/imu_transform", true),
    ("/serpent/optimisation/odometry", true), ("/serpent/output/path", true), ("/serpent/optimisation/path_changes", true),
    ("/serpent/debug/stereo_points", p.bool "debug/optimisation/publish_stereo_points" false)] ++
  ([("/serpent/formatter/formatted_pointcloud", true)] ++ (cloudTopics (cloudOptions p) ++
  ([("/serpent/mapping/local_map", registration), ("/serpent/output/global_map", registration),
    ("/serpent/output/pose_graph", registration), ("/serpent/registration/transform", registration),
    ("/serpent/debug/previous_pointcloud", registration && clouds), ("/serpent/debug/current_pointcloud", registration && clouds),
    ("/serpent/debug/imu_guess_pointcloud", registration && clouds),
    ("/serpent/debug/s2s_transformed_pointcloud", registration && clouds),
    ("/serpent/debug/s2m_transformed_pointcloud", registration && clouds),
    ("/serpent/debug/s2s_transformed_pointcloud_alt", registration && (clouds && alt)),
    ("/serpent/debug/s2m_transformed_pointcloud_alt", registration && (clouds && alt))] ++
  [("/serpent/stereo/features", stereo), ("/serpent/stereo/statistics", stereo && p.bool "debug/stereo/publish_stats" false),
    ("/serpent/stereo/left/extracted_keypoints/image", stereo && images),
    ("/serpent/stereo/right/extracted_keypoints/image", stereo && images),
    ("/serpent/stereo/left/sof_matches/image", stereo && images), ("/serpent/stereo/right/sof_matches/image", stereo && images),
    ("/serpent/stereo/stereo_filtered_matches/image", stereo && images), ("/serpent/stereo/new_matches/image", stereo && images),
    ("/serpent/stereo/tracked_matches/image", stereo && images),
    ("/serpent/stereo/track_points", stereo && p.bool "debug/stereo/publish_points" false)]))))

/-- How many subscribers in a network a topic has. -/
def subscribers (nodes : List Node) (topic : String) : Nat := ((subscriptions nodes).map Prod.fst).count topic

/-- The topics that the components of the system read, with the number of their readers. The front end reads the state and the biases
from the optimisation and the formatted pointclouds; the optimisation reads the IMU messages and the first odometry, and what the
enabled factors need. With registration, the first filter (or what comes instead of it) reads the deskewed pointcloud, each filter
reads the one before it, mapping and registration both read the pointcloud with normals, mapping reads the changed poses, and
registration reads the guess and the local map. With stereo, the tracking of features reads images and calibrations. -/
def readTable (stereo barometer : Bool) (c : CloudOptions) : List (String × Nat) :=
  [("/serpent/optimisation/imu_biases", 1), ("/serpent/optimisation/odometry", 1), ("/serpent/formatter/formatted_pointcloud", 1),
    ("/serpent/frontend/imu_s2s", 1), ("/serpent/frontend/initial_odometry", 1),
    ("/serpent/registration/transform", c.registration.toNat), ("/serpent/stereo/features", stereo.toNat),
    ("/serpent/frontend/barometer", barometer.toNat), ("/serpent/normal_estimation/pointcloud", 2 * c.registration.toNat),
    ("/serpent/optimisation/path_changes", c.registration.toNat), ("/serpent/optimisation/imu_transform", c.registration.toNat),
    ("/serpent/mapping/local_map", c.registration.toNat), ("/serpent/stereo/left/image", stereo.toNat),
    ("/serpent/stereo/right/image", stereo.toNat), ("/serpent/stereo/left/camera_info", stereo.toNat),
    ("/serpent/stereo/right/camera_info", stereo.toNat)] ++
  [("/serpent/frontend/deskewed_pointcloud", c.registration.toNat),
    ("/serpent/filter/voxel_filtered_pointcloud",
      (c.registration && (c.voxel && (c.body || c.range || c.outliers || c.sample))).toNat),
    ("/serpent/filter/body_filtered_pointcloud", (c.registration && (c.body && (c.range || c.outliers || c.sample))).toNat),
    ("/serpent/filter/range_filtered_pointcloud", (c.registration && (c.range && (c.outliers || c.sample))).toNat),
    ("/serpent/filter/sor_filtered_pointcloud", (c.registration && (c.outliers && c.sample)).toNat),
    ("/serpent/filter/filtered_pointcloud",
      (c.registration && (c.voxel || c.body || c.range || c.outliers || c.sample)).toNat),
    ("/serpent/add_unit_vectors/pointcloud", (c.registration && c.directions).toNat)]

open Params in
/-- `readTable` for the options of a server. -/
def subscriberTable (p : Server) : List (String × Nat) :=
  readTable (p.bool "optimisation/factors/stereo" true) (p.bool "optimisation/factors/barometer" true) (cloudOptions p)

end Wiring

end Serpent
