import Verif.Model.PclDeskew

/-!
# Model of the file converter and the analyser of `pointcloud_tools`

Paths: "converter.cpp" is pointcloud_tools/src/pointcloud_file_converter.cpp, "open3d.cpp" is
pointcloud_tools/src/pointcloud_file_converter_open3d.cpp and "analyser.cpp" is pointcloud_tools/src/pointcloud_analyser.cpp.

Simplifications:
* The file formats of PCL are a parameter, `Formats`; a save that fails leaves the file as it was.
* A topic is what was sent on it and whether the last message is kept for later subscribers. Two names that ROS resolves to the same
  topic are not the same name here. Queues are not modelled.
* `waitForMessage` returns the message `arrival` that is published on the topic in time, if any; with the timeout 0 it returns only with
  a message.
* An exception in a service is answered with an error by ROS, the node goes on. Requests are served one at a time (`ros::spin`).
* `emplace` after `find` did not find the topic never fails: the exceptions of converter.cpp:28-30 are not modelled.
* The text of errors and what is logged is not modelled.
-/

namespace Serpent

namespace FileConverter

open Pcl

/-- `sensor_msgs::PointCloud2`: the stamp is in nanoseconds. Used in converter.cpp:51-82. -/
structure CloudMsg where
  seq : Nat
  stamp : Nat
  frame : String
  height : Nat
  width : Nat
  fields : List PField
  isBigendian : Bool
  pointStep : Nat
  rowStep : Nat
  data : List UInt8
  isDense : Bool
deriving DecidableEq, Repr

/-- `pcl_conversions::fromPCL(PCLPointCloud2, PointCloud2&)` (pcl_conversions). Used by converter.cpp:16-49. -/
def fromPCL (c : Cloud) : CloudMsg :=
  ⟨c.header.seq, c.header.stamp * 1000, c.header.frame, c.height, c.width, c.fields, c.isBigendian, c.pointStep, c.rowStep, c.data, c.isDense⟩

/-- `pcl_conversions::toPCL(PointCloud2, PCLPointCloud2&)` (pcl_conversions). Used by converter.cpp:51-82. -/
def toPCL (m : CloudMsg) : Cloud :=
  ⟨⟨m.seq, m.stamp / 1000, m.frame⟩, m.height, m.width, m.fields, m.isBigendian, m.pointStep, m.rowStep, m.data, m.isDense⟩

/-- The message that subscribers get for a published `pcl::PCLPointCloud2` (the serialiser of pcl_conversions; type name and
checksum are those of `sensor_msgs/PointCloud2`). For converter.cpp:37-46. -/
def wire (c : Cloud) : CloudMsg := fromPCL c

/-- `pcl::io::load` and `pcl::io::save` (PCL) on file contents `β`; the format depends on the extension of the path. `none`: a
return code other than 0. Used in converter.cpp:37-46 and 76-81. -/
structure Formats (β : Type) where
  load : String → β → Option Cloud
  save : String → Cloud → Option β

/-- `file_to_message::Request`, srv/file_to_message.srv:1-10. -/
structure LoadRequest where
  filepath : String
  topic : String
  frameId : String
  latch : Bool
  asPclType : Bool

/-- `message_to_file::Request`, srv/message_to_file.srv:1-8; the timeout in nanoseconds. -/
structure SaveRequest where
  filepath : String
  topic : String
  timeout : Int
  isPclType : Bool

/-- What the caller of a service gets; `none` in place of a reply: the call does not return. Of the services of
converter.cpp:16-82. -/
inductive Reply where
  | done (text : String)
  | error
deriving DecidableEq

/-- A topic that was advertised. Members of the map of converter.cpp:18-32. -/
structure Topic where
  latch : Bool
  sent : List CloudMsg

/-- What a subscriber that comes later gets at once (roscpp). For the publishers of converter.cpp:18-32. -/
def Topic.kept (t : Topic) : Option CloudMsg := if t.latch then t.sent.getLast? else none

/-- The node, with the files; `blocked`: a service does not return. For converter.cpp:10-82. -/
structure Node (β : Type) where
  publishers : String → Option Topic
  files : String → Option β
  blocked : Bool

/-- `PointcloudFileConverter()`, converter.cpp:10-14. -/
def start {β : Type} (files : String → Option β) : Node β := ⟨fun _ => none, files, false⟩

/-- converter.cpp:18-32: the publisher for the topic, which is made if there is none. -/
def advertise {β : Type} (r : LoadRequest) (n : Node β) : Topic × Node β :=
  match n.publishers r.topic with
  | some t => (t, n)
  | none => (⟨r.latch, []⟩, { n with publishers := Function.update n.publishers r.topic (some ⟨r.latch, []⟩) })

/-- converter.cpp:37-46: the cloud of the file is given a stamp and a frame and published. -/
def publishLoaded {β : Type} (now : Nat) (r : LoadRequest) (t : Topic) (n : Node β) (c : Cloud) : Reply × Node β :=
  let c := { c with header := { c.header with stamp := now / 1000 } }
  let c := { c with header := { c.header with frame := r.frameId } }
  let m := if r.asPclType then wire c else fromPCL c
  (.done ("Published pointcloud (" ++ toString (u32 (c.height * c.width)) ++ " points) to topic '" ++ r.topic ++ "'"),
    { n with publishers := Function.update n.publishers r.topic (some { t with sent := t.sent ++ [m] }) })

/-- `load`, converter.cpp:16-49. -/
def load {β : Type} (fmt : Formats β) (now : Nat) (r : LoadRequest) (n : Node β) : Reply × Node β :=
  match (n.files r.filepath).bind (fmt.load r.filepath) with
  | none => (.error, (advertise r n).2)
  | some c => publishLoaded now r (advertise r n).1 (advertise r n).2 c

/-- converter.cpp:76-81: the cloud is saved. -/
def saveCloud {β : Type} (fmt : Formats β) (r : SaveRequest) (n : Node β) (c : Cloud) : Reply × Node β :=
  match fmt.save r.filepath c with
  | none => (.error, n)
  | some b => (.done ("Saved PCL pointcloud (" ++ toString (u32 (c.width * c.height)) ++ " points) to " ++ r.filepath),
      { n with files := Function.update n.files r.filepath (some b) })

/-- `save`, converter.cpp:51-82: with the type of PCL, the deserialiser of pcl_conversions makes the cloud of the message, otherwise
`toPCL` does. -/
def save {β : Type} (fmt : Formats β) (r : SaveRequest) (arrival : Option CloudMsg) (n : Node β) : Option Reply × Node β :=
  match arrival with
  | none => if r.timeout = 0 then (none, { n with blocked := true }) else (some .error, n)
  | some m => let s := saveCloud fmt r n (toPCL m); (some s.1, s.2)

/-- `save` with Open3D for the type of PCL, open3d.cpp:44-54: the return code is reported. -/
def saveOpen3d {β : Type} (fmt : Formats β) (r : SaveRequest) (m : CloudMsg) (n : Node β) : Reply × Node β :=
  let text := "Saved PCL pointcloud (" ++ toString (u32 (m.width * m.height)) ++ " points) to " ++ r.filepath ++ " with return code "
  match fmt.save r.filepath (toPCL m) with
  | none => (.done (text ++ "-1"), n)
  | some b => (.done (text ++ "0"), { n with files := Function.update n.files r.filepath (some b) })

/-- A request: when it is served, or which message arrives in time. Calls of converter.cpp:16-82. -/
inductive Event where
  | load (now : Nat) (r : LoadRequest)
  | save (r : SaveRequest) (arrival : Option CloudMsg)

/-- A request is served, unless the node waits in another. Calls of converter.cpp:16-82. -/
def step {β : Type} (fmt : Formats β) (n : Node β) (e : Event) : Option Reply × Node β :=
  if n.blocked then (none, n)
  else match e with
    | .load now r => let s := load fmt now r n; (some s.1, s.2)
    | .save r a => save fmt r a n

/-- The node after requests. Calls of converter.cpp:16-82. -/
def run {β : Type} (fmt : Formats β) (n : Node β) (es : List Event) : Node β := es.foldl (fun n e => (step fmt n e).2) n

/-! ### The analyser -/

/-- What is published and logged for a cloud: the stamp and the frame of the statistics, the statistics, and the number of
normals that are not normalised of how many, if the cloud has normals. Source: analyser.cpp:16-40. -/
structure Report where
  header : Nat × Nat × String
  statistics : List (Summary ℝ)
  normals : Option (Nat × Nat)

/-- analyser.cpp:29-39; the default threshold is that of pclpointcloud2_utilities.hpp:68. -/
noncomputable def reportNormals (cd : Codec ℝ) (c : Cloud) : Outcome (Option (Nat × Nat)) :=
  if hasField c "normal_x" && hasField c "normal_y" && hasField c "normal_z" then
    checkNormals cd c (1 / 1000000) >>= fun n => .ok (some (n, sizePoints c))
  else .ok none

/-- `PointcloudAnalyser::analyse`, analyser.cpp:16-40, with the header of the statistics (utilities.cpp:431). `info_string` (it throws
only when `statistics` does) and the log are not modelled. If the callback throws after the statistics are published, the node ends
all the same: the outcome is `throws`. -/
noncomputable def analyse (cd : Codec ℝ) (msg : CloudMsg) : Outcome Report :=
  let c := toPCL msg
  statistics cd c >>= fun s =>
  reportNormals cd c >>= fun n =>
  .ok ⟨(c.header.seq, c.header.stamp * 1000, c.header.frame), s, n⟩

end FileConverter

end Serpent
