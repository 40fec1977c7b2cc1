import Verif.Model.Wiring
import Verif.Spec.Robots

/-!
# Model of the launch files of the data sets

snowboard/launch, ue4_missions/launch and simulator_prcp_missions/launch, with the nodes of camera_tools that they start, and what they
say about the topics of image_undistort (another package). Simplifications as in `Verif.Model.Wiring`; the recorded data that is played
back is a list of topics.
-/

namespace Serpent

namespace Wiring

open Camera

/-- `ImageSplitter`, split_image.cpp:10 and 54-55, with the remapping of camera_tools/launch/split_image.launch:10; the topics of the
parts of the image are absolute names. -/
def splitNode (image : String) (kit : List (ImageParams ℚ)) : Node where
  subscribes := [(image, .image)]
  advertises := kit.flatMap fun p => [(p.topic, .image), (p.infoTopic, .cameraInfo)]

/-- A node `PublishInfo`, publish_info.cpp:8-11, with the remappings and the file of camera_tools/launch/publish_info.launch:9-11: it
publishes the configured camera info for each image. -/
structure InfoLaunch where
  image : String
  info : String
  config : InfoParams ℚ

/-- Its topics, publish_info.cpp:8-11. -/
def InfoLaunch.node (l : InfoLaunch) : Node where
  subscribes := [(l.image, .image)]
  advertises := [(l.info, .cameraInfo)]

/-- A camera of the node `stereo_undistort_node` of image_undistort: the raw image, and the undistorted image with its info.
snowboard/launch/undistort_stereo.launch:22-29. -/
structure Undistorted where
  raw : String
  image : String
  info : String

/-- The two cameras, `first` and `second`, with the remappings of snowboard/launch/undistort_stereo.launch:22-29. -/
def undistorted (camera : String) : List Undistorted := [
  ⟨"/" ++ camera ++ "/left/image_raw", "/" ++ camera ++ "/left/rect/image", "/" ++ camera ++ "/left/rect/camera_info"⟩,
  ⟨"/" ++ camera ++ "/right/image_raw", "/" ++ camera ++ "/right/rect/image", "/" ++ camera ++ "/right/rect/camera_info"⟩]

/-- The topics of that node, snowboard/launch/undistort_stereo.launch:21-47. The camera infos of the raw images are not subscribed to:
they are read from parameters (line 6). -/
def undistortNode (camera : String) : Node where
  subscribes := (undistorted camera).map fun u => (u.raw, .image)
  advertises := (undistorted camera).flatMap fun u => [(u.image, .image), (u.info, .cameraInfo)]

/-- snowboard/launch/serpent.launch:26-31 (serpent_mammoth_stereo_pipeline.launch:16-20,
serpent_ice_rink_flat_loop_stereo_pipeline.launch:15-19), with the argument `stereo_camera`; the topic of the barometer is the default. -/
def snowboardTopics (camera : String) : Topics where
  imu := "/vectornav/imu"
  pointcloud := "/os_cloud_node/points"
  leftImage := "/" ++ camera ++ "/left/rect/image"
  rightImage := "/" ++ camera ++ "/right/rect/image"
  leftInfo := "/" ++ camera ++ "/left/rect/camera_info"
  rightInfo := "/" ++ camera ++ "/right/rect/camera_info"
  barometer := "/barometer"

/-- The directories of snowboard/config/camera_calibration that have a file ds-none-camchain.yaml. -/
def calibrated : List String := ["snowboard_left"]

/-- The nodes that snowboard/launch/serpent.launch:17-22 (serpent_mammoth_stereo_pipeline.launch:6-11,
serpent_ice_rink_flat_loop_stereo_pipeline.launch:6-11) starts before Serpent: both nodes of split_images.launch, and the one of
undistort_stereo.launch. The latter's line 47 loads the calibration from the file of line 3, whose name cannot be given to the launch
files above; without the file nothing is launched. -/
def snowboardCameras (camera : String) : Outcome (List Node) :=
  if camera ∈ calibrated then
    .ok [splitNode "/kit0/image" Robots.kit0, splitNode "/kit1/image" Robots.kit1, undistortNode camera]
  else .throws

/-- The four topics of the cameras, arguments of ue4_missions/launch/serpent.launch:16-19. -/
structure CameraTopics where
  leftImage : String
  leftInfo : String
  rightImage : String
  rightInfo : String

/-- Their defaults, ue4_missions/launch/serpent.launch:16-19. -/
def ue4Defaults : CameraTopics := ⟨"/left_cam/image_raw", "/left_cam/camera_info", "/right_cam/image_raw", "/right_cam/camera_info"⟩

/-- ue4_missions/launch/serpent.launch:31-36. -/
def ue4Topics (c : CameraTopics) : Topics where
  imu := "/imu"
  pointcloud := "/lidar/points"
  leftImage := c.leftImage
  rightImage := c.rightImage
  leftInfo := c.leftInfo
  rightInfo := c.rightInfo
  barometer := "/barometer"

/-- ue4_missions/launch/publish_camera_info.launch:7-18; the topics come from ue4_missions/launch/serpent.launch:22-27. -/
def ue4Infos (c : CameraTopics) : List InfoLaunch :=
  [⟨c.leftImage, c.leftInfo, Robots.ue4Info 0⟩, ⟨c.rightImage, c.rightInfo, Robots.ue4Info 0.1⟩]

/-- Their nodes, ue4_missions/launch/publish_camera_info.launch:7-18. -/
def ue4Cameras (c : CameraTopics) : List Node := (ue4Infos c).map InfoLaunch.node

/-- simulator_prcp_missions/launch/serpent.launch:14-19, with the argument `stereo_camera`. -/
def simulatorTopics (camera : String) : Topics where
  imu := "/imu"
  pointcloud := "/points"
  leftImage := "/" ++ camera ++ "/left/image_raw"
  rightImage := "/" ++ camera ++ "/right/image_raw"
  leftInfo := "/" ++ camera ++ "/left/camera_info"
  rightInfo := "/" ++ camera ++ "/right/camera_info"
  barometer := "/barometer"

end Wiring

end Serpent
