import Verif.Spec.DataSets
import Verif.Model.BodyFrames
import Verif.Model.Camera

/-!
# The robots of the data sets

Transcribed from the files line by line: the frames of the robots, the parts of the camera images and the camera infos. A frame has no
members but the translation, the rotation and its own frames; of a translation, any of `x`, `y` and `z` may be missing.
-/

namespace Serpent

namespace Robots

open BodyFrames EigenExt

/-- The members of a frame with a translation and a rotation. -/
noncomputable def at_ (x y z : Option ℝ) (q : Option Quat) : NodeData (Iso ℝ) :=
  ⟨none, none, none, none, some (nodeTransform (some (x, y, z)) q)⟩

/-- The members of a frame with a rotation only. -/
noncomputable def turned (q : Quat) : NodeData (Iso ℝ) := ⟨none, none, none, none, some (nodeTransform none (some q))⟩

/-- A frame without frames of its own, before the other ones. -/
noncomputable def leaf (name : String) (d : NodeData (Iso ℝ)) (rest : Forest (Iso ℝ)) : Forest (Iso ℝ) := .cons name d false .nil rest

/-- A pair of cameras in the middle of which the frame is: `left` at `x = -h` and `right` at `x = h`. -/
noncomputable def pair (left right : String) (h : ℝ) : Forest (Iso ℝ) :=
  leaf left (at_ (some (-h)) none none none) (leaf right (at_ (some h) none none none) .nil)

/-- snowboard/config/serpent/snowboard.yaml:12-93. -/
noncomputable def snowboard : Config (Iso ℝ) where
  body := "base_link"
  frameId := some "base_link"
  frames := some
    (leaf "imu" (at_ (some 0) (some 0) (some 0) (some ⟨0, 0, 1, 0⟩))
    (leaf "lidar" (at_ (some 0.6) (some 0.04) (some 0) (some ⟨0.9981348, 0, -0.0610485, 0⟩))
    (.cons "left_stereo" (at_ (some 0.4225) (some 0.09) (some 0.04) (some ⟨0.7071068, -0.7071068, 0, 0⟩)) true
      (pair "left_stereo_left_cam" "left_stereo_right_cam" 0.0275)
    (.cons "right_stereo" (at_ (some 0.4225) (some (-0.01)) (some 0.04) (some ⟨0, 0, -0.7071068, 0.7071068⟩)) true
      (pair "right_stereo_left_cam" "right_stereo_right_cam" 0.0275)
    (.cons "front_stereo" (at_ (some 0.4725) (some 0.04) (some 0.04) (some ⟨0.5, -0.5, 0.5, -0.5⟩)) true
      (pair "front_stereo_left_cam" "front_stereo_right_cam" 0.0275)
    (.cons "up_stereo" (at_ (some 0.4225) (some 0.04) (some 0.09) (some ⟨1, 0, 0, 0⟩)) true
      (pair "up_stereo_left_cam" "up_stereo_right_cam" 0.0275) .nil))))))

/-- ue4_missions/config/serpent/ue4_platform.yaml:2-40; the translation of `imu` has `y` twice and no `z`. -/
noncomputable def ue4 : Config (Iso ℝ) where
  body := "base_link"
  frameId := some "base_link"
  frames := some
    (leaf "imu" (at_ (some 0) (some 0) none (some ⟨1, 0, 0, 0⟩))
    (leaf "lidar" (at_ (some 0) (some 0) (some 0) (some ⟨0, 1, 0, 0⟩))
    (.cons "camera" (turned ⟨-0.5, 0.5, -0.5, 0.5⟩) true (pair "left_cam" "right_cam" 0.05) .nil)))

/-- simulator_prcp_missions/config/serpent/eels_head.yaml:1-62. -/
noncomputable def simulator : Config (Iso ℝ) where
  body := "base_link"
  frameId := some "head_base"
  frames := some
    (leaf "imu" (at_ (some 0) none none none)
    (leaf "lidar" (at_ (some 0.3) (some 0) (some (-0.06)) (some ⟨1, 0, 0, 0⟩))
    (.cons "camera_left_left" (at_ (some (-0.05)) (some 0.1) (some 0) (some ⟨0.7071068, -0.7071068, 0, 0⟩)) true
      (leaf "camera_left_right" (at_ (some 0.1) none none none) .nil)
    (.cons "camera_right_left" (at_ (some 0.05) (some (-0.1)) (some 0) (some ⟨0, 0, -0.7071068, 0.7071068⟩)) true
      (leaf "camera_right_right" (at_ (some 0.1) none none none) .nil)
    (.cons "camera_front_left" (at_ (some 0.25) (some 0.05) (some 0) (some ⟨0.5, -0.5, 0.5, -0.5⟩)) true
      (leaf "camera_front_right" (at_ (some 0.1) none none none) .nil) .nil)))))

/-- The data sets with their robots. -/
noncomputable def robots : List (Params.DataSet × Config (Iso ℝ)) :=
  [(Params.snowboard, snowboard), (Params.ue4, ue4), (Params.simulator, simulator)]

/-- The stereo cameras of the robots: robot, left camera, right camera, distance. -/
noncomputable def stereoPairs : List (Config (Iso ℝ) × String × String × ℝ) := [
  (snowboard, "left_stereo_left_cam", "left_stereo_right_cam", 0.055),
  (snowboard, "right_stereo_left_cam", "right_stereo_right_cam", 0.055),
  (snowboard, "front_stereo_left_cam", "front_stereo_right_cam", 0.055),
  (snowboard, "up_stereo_left_cam", "up_stereo_right_cam", 0.055),
  (ue4, "left_cam", "right_cam", 0.1),
  (simulator, "camera_left_left", "camera_left_right", 0.1),
  (simulator, "camera_right_left", "camera_right_right", 0.1),
  (simulator, "camera_front_left", "camera_front_right", 0.1)]

/-! ### The images of the snowboard -/

open Camera

/-- An entry of snowboard/config/camera_tools/split_kit0.yaml or split_kit1.yaml: the `i`-th part of the image, from the left. -/
def kitImage (topic frameId infoTopic : String) (i : Int) (half : Bool) : ImageParams ℚ where
  topic := topic
  region := ⟨1280 * i, 0, 1280, 800⟩
  infoTopic := infoTopic
  distortionModel := "plumb_bob"
  k1 := 0
  k2 := 0
  t1 := 0
  t2 := 0
  k3 := 0
  fx := 1
  cx := 640
  fy := 1
  cy := 400
  frameId := frameId
  operations := if half then some [("rotate_cw", .int 180)] else none

/-- snowboard/config/camera_tools/split_kit0.yaml. -/
def kit0 : List (ImageParams ℚ) := [
  kitImage "/snowboard_front/right/image_raw" "front_stereo_right_cam" "/snowboard_front/right/camera_info" 0 true,
  kitImage "/snowboard_front/left/image_raw" "front_stereo_left_cam" "/snowboard_front/left/camera_info" 1 true,
  kitImage "/snowboard_left/right/image_raw" "left_stereo_right_cam" "/snowboard_left/right/camera_info" 2 true,
  kitImage "/snowboard_left/left/image_raw" "left_stereo_left_cam" "/snowboard_left/left/camera_info" 3 true]

/-- snowboard/config/camera_tools/split_kit1.yaml. -/
def kit1 : List (ImageParams ℚ) := [
  kitImage "/snowboard_up/left/image_raw" "up_stereo_left_cam" "/snowboard_up/left/camera_info" 0 false,
  kitImage "/snowboard_up/right/image_raw" "up_stereo_right_cam" "/snowboard_up/right/camera_info" 1 false,
  kitImage "/snowboard_right/left/image_raw" "right_stereo_left_cam" "/snowboard_right/left/camera_info" 2 false,
  kitImage "/snowboard_right/right/image_raw" "right_stereo_right_cam" "/snowboard_right/right/camera_info" 3 false]

/-- ue4_missions/config/left_camera_info.yaml (`baseline` is missing: 0, publish_info.cpp:27) and right_camera_info.yaml. -/
def ue4Info (baseline : ℚ) : InfoParams ℚ where
  distortionModel := ""
  d := []
  kfx := 252.07471375549554
  kcx := 360
  kfy := 252.07471375549554
  kcy := 360
  pfx := 252.07471375549554
  pcx := 360
  baseline := baseline
  pfy := 252.07471375549554
  pcy := 360

end Robots

end Serpent
