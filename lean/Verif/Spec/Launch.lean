import Verif.Spec.Wiring

/-!
# What it means that the nodes of a launch file get their data
-/

namespace Serpent

namespace Wiring

/-- Every subscription of the nodes is to a recorded topic of the right type that no node publishes for, or there is exactly one
publisher for it among the nodes, and that has its type of messages. -/
def Fed (recorded : List Port) (nodes : List Node) : Prop :=
  ∀ t ∈ subscriptions nodes, (t ∈ recorded ∧ publishers nodes t.1 = []) ∨ publishers nodes t.1 = [t.2]

/-- What is recorded on the snowboard: IMU, lidar, and an image of four cameras from each of two interfaces. -/
def snowboardRecorded : List Port :=
  [("/vectornav/imu", .imu), ("/os_cloud_node/points", .cloud .any), ("/kit0/image", .image), ("/kit1/image", .image)]

/-- What is recorded in the ue4 missions: no camera infos. -/
def ue4Recorded (left right : String) : List Port :=
  [("/imu", .imu), ("/lidar/points", .cloud .any), (left, .image), (right, .image)]

/-- The stereo cameras of the simulator, with the frames of their left and right cameras (simulator_prcp_missions/config/serpent/eels_head.yaml). -/
def simulatorCameras : List (String × String × String) :=
  [("camera_left", "camera_left_left", "camera_left_right"), ("camera_right", "camera_right_left", "camera_right_right"),
    ("camera_front", "camera_front_left", "camera_front_right")]

/-- The topics of the images of its cameras, with the frames of the cameras. -/
def simulatorImages : List (String × String) := simulatorCameras.flatMap fun c =>
  [("/" ++ c.1 ++ "/left/image_raw", c.2.1), ("/" ++ c.1 ++ "/right/image_raw", c.2.2)]

/-- What is recorded in the simulator: three stereo cameras, with camera infos. -/
def simulatorRecorded : List Port :=
  [("/imu", .imu), ("/points", .cloud .any)] ++ simulatorImages.map (fun i => (i.1, .image)) ++ simulatorCameras.flatMap fun c =>
    [("/" ++ c.1 ++ "/left/camera_info", .cameraInfo), ("/" ++ c.1 ++ "/right/camera_info", .cameraInfo)]

open Params in
/-- The nodes of the system, with options and topics: one process, two processes, or the one that only tracks features. -/
inductive System (cv : OpenCv) (frames : String → Bool) (p : Server) (a : Topics) : List Node → Prop
  | one {s : Single} {n : Node} (start : single cv frames p = .ok s) (node : singleNode a p s = .ok n) : System cv frames p a [n]
  | two {f : FrontProcess} {b : BackProcess} {n : Node} (front : frontProcess frames p = .ok f) (back : backProcess cv frames p = .ok b)
      (node : frontNode a p f = .ok n) : System cv frames p a [n, backNode b]
  | stereo {t : StereoTracking} {k : Nat} (start : stereoProcess cv p = .ok (t, k)) : System cv frames p a [pipelineNode a t]

/-- The measurements of the barometer, if they are recorded. -/
def barometerRecorded : List Port := [("/barometer", .fluidPressure)]

end Wiring

end Serpent
