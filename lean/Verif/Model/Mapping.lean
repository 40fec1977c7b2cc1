import Verif.Basic.OMap
import Verif.Basic.Outcome
import Mathlib.Algebra.Order.Group.Unbundled.Int

/-!
# Model of the mapping node (`serpent/include/serpent/mapping/mapping-inl.hpp`)

Simplifications:
* Geometry is a parameter (`Ops`): poses `P`, points of the pose cloud `V`, points of point clouds `X`. The instance with
  quaternions and real numbers is in `Verif.Model.MappingReal`.
* `ros::Time` and the stamps of PCL are integers (a PCL stamp and the ROS stamp it is converted from or to are the same
  number).
* Every callback holds `map_mutex` from start to end (`std::lock_guard`), so callbacks are atomic.
* Sensor origin, `is_dense`, width and height of the clouds, and log messages are left out.
-/

namespace Serpent

namespace Mapping

/-- Geometry and library calls. Used in mapping-inl.hpp:104-301. -/
structure Ops (P V X : Type) where
  /-- `Pose{to_transform(body_pose) * body_frames.body_to_frame("lidar")}`, mapping-inl.hpp:199-201. -/
  toLidar : P → P
  /-- `should_add_to_map(new, previous)`, mapping-inl.hpp:284-290. -/
  far : P → P → Bool
  /-- `PointAngleAxis{position, orientation}`. -/
  point : P → V
  /-- `nearestKSearch`: the indices found for a search point and a number. -/
  knn : List V → V → Nat → List Nat
  /-- Points of the frame with the second pose, seen from the frame with the first pose, mapping-inl.hpp:32-39. -/
  move : P → P → X → X
  /-- Points of the frame with the pose, seen from the map frame, mapping-inl.hpp:269-270. -/
  moveMap : P → X → X
  /-- `filter_pointcloud`, mapping-inl.hpp:160-166. -/
  voxel : List X → List X
  /-- `body_frames.frame_id("lidar")`. -/
  lidarFrame : String
  /-- Parameter `map_frame_id`. -/
  mapFrame : String

/-- `FrameExtractionMethod`, mapping.hpp:26-29. -/
inductive Method where
  | nearby
  | past
deriving DecidableEq, Repr

/-- `to_frame_extraction_method`, mapping-inl.hpp:17-25. -/
def toMethod (s : String) : Outcome Method :=
  if s = "NEARBY" then .ok .nearby
  else if s = "PAST" then .ok .past
  else .throws

/-- Parameters, mapping-inl.hpp:60-87. -/
structure Cfg where
  method : Method
  number : Nat
  voxelLocal : Bool
  voxelGlobal : Bool

/-- A point cloud message: stamp, frame, points. Used in mapping-inl.hpp:104-301. -/
structure Cloud (X : Type) where
  stamp : Int
  frame : String
  points : List X
deriving DecidableEq

/-- `MapFrame`, mapping.hpp:33-54: `pose.data`, `pose.timestamp` and `pointcloud`. -/
structure Frame (P X : Type) where
  pose : P
  stamp : Int
  cloud : Cloud X
deriving DecidableEq

/-- `serpent::PoseGraph`: clouds, and poses with stamp and frame. Source: mapping.hpp:26-54. -/
structure PoseGraph (P X : Type) where
  clouds : List (Cloud X)
  poses : List (Int × String × P)
deriving DecidableEq

/-- Members of `Mapping`, mapping.hpp:158-184, and what has been published (newest last). -/
structure St (P V X : Type) where
  map : OMap Int (Frame P X)
  poseCloud : Option (List V)
  indices : OMap Int Nat
  timestamps : OMap Nat Int
  locals : List (Cloud X)
  globals : List (Cloud X)
  graphs : List (PoseGraph P X)

/-- Constructor, mapping-inl.hpp:43-90: the number of frames must be positive; the pose cloud exists only in mode `NEARBY`. -/
def create {P V X : Type} (method : String) (number : Int) (voxelLocal voxelGlobal : Bool) : Outcome (Cfg × St P V X) :=
  if number < 1 then .throws
  else toMethod method >>= fun m =>
    .ok ({ method := m, number := number.toNat, voxelLocal := voxelLocal, voxelGlobal := voxelGlobal },
      { map := [], poseCloud := match m with | .nearby => some [] | .past => none, indices := [], timestamps := [],
        locals := [], globals := [], graphs := [] })

section
variable {P V X : Type} (O : Ops P V X)

/-- `*pointcloud += *pointcloud_target` (`pcl::PointCloud::concatenate`): points are appended, the later stamp is kept. In
mapping-inl.hpp:119-124. -/
def Cloud.append (a b : Cloud X) : Cloud X := { a with stamp := max a.stamp b.stamp, points := a.points ++ b.points }

/-- `MapFrame::transformed_pointcloud`, mapping-inl.hpp:31-40. -/
def transformed (target : P) (f : Frame P X) : Cloud X := { f.cloud with points := f.cloud.points.map (O.move target f.pose) }

/-- `add_to_map`, mapping-inl.hpp:92-102. -/
def addToMap (pose : P) (stamp : Int) (cloud : Cloud X) : M (St P V X) Unit := M.modify fun s =>
  let s := match s.poseCloud with
    | some pc => { s with indices := OMap.emplace s.indices stamp pc.length,
                          timestamps := OMap.emplace s.timestamps pc.length stamp,
                          poseCloud := some (pc ++ [O.point pose]) }
    | none => s
  { s with map := OMap.emplace s.map stamp { pose := pose, stamp := stamp, cloud := cloud } }

/-- `update_map`, mapping-inl.hpp:292-301. Without a pose cloud (mode `PAST`) the null pointer `pose_cloud` is dereferenced. -/
def updateMap (pose : P) (stamp : Int) : M (St P V X) Unit := do
  let s ← M.get
  match OMap.find s.map stamp with
  | none => pure ()
  | some f =>
    M.modify fun s => { s with map := OMap.assign s.map stamp { f with pose := pose, stamp := stamp } }
    match s.poseCloud with
    | none => M.ub
    | some pc =>
      match OMap.find s.indices stamp with
      | none => M.throw
      | some i =>
        if i < pc.length then M.modify fun s => { s with poseCloud := some (pc.set i (O.point pose)) }
        else M.throw

/-- `last_frame`, mapping-inl.hpp:168-175. -/
def lastFrame (s : St P V X) : Outcome (Frame P X) :=
  match s.map.getLast? with
  | none => .throws
  | some e => .ok e.2

/-- Merging of the frames in the local map: a frame later than the query throws (mapping-inl.hpp:118-124, 147-152). -/
def merge (target : P) (stamp : Int) : List (Frame P X) → Cloud X → Outcome (Cloud X)
  | [], acc => .ok acc
  | f :: fs, acc =>
    if f.stamp > stamp then .throws
    else merge target stamp fs (acc.append (transformed O target f))

/-- Looking up the frames of indices: `map.at(pose_cloud_timestamps.at(index))`, mapping-inl.hpp:119. -/
def framesAt (s : St P V X) : List Nat → Outcome (List (Frame P X))
  | [] => .ok []
  | i :: is =>
    match OMap.find s.timestamps i with
    | none => .throws
    | some t =>
      match OMap.find s.map t with
      | none => .throws
      | some f => framesAt s is >>= fun fs => .ok (f :: fs)

/-- `extract_nearby_frames`, mapping-inl.hpp:104-131. (The code looks each frame up just before it is merged; the order only
matters if one of them throws.) -/
def extractNearby (s : St P V X) (n : Nat) (pose : P) (stamp : Int) : Outcome (Cloud X) :=
  match s.poseCloud with
  | none => .ub
  | some pc =>
    let k := min n pc.length
    let found := O.knn pc (O.point pose) k
    if found.length = k then
      framesAt s found >>= fun fs => merge O pose stamp fs { stamp := stamp, frame := O.lidarFrame, points := [] }
    else .throws

/-- `extract_past_frames`, mapping-inl.hpp:133-158: reverse iteration; nothing stops the first loop at `map.rend()`, and the
second loop starts there if no frame is old enough. -/
def extractPast (s : St P V X) (n : Nat) (pose : P) (stamp : Int) : Outcome (Cloud X) :=
  match s.map.reverse.dropWhile (fun e => e.1 > stamp) with
  | [] => .ub
  | l => merge O pose stamp ((l.take n).map (·.2)) { stamp := stamp, frame := O.lidarFrame, points := [] }

/-- Loop over the path, mapping-inl.hpp:195-218. The path has stamps and poses of the body; the result is the pose of the
cloud, if its stamp has been found. -/
def pathLoop (cloud : Cloud X) : List (Int × P) → Option P → M (St P V X) (Option P)
  | [], found => pure found
  | (t, body) :: rest, found => do
    let lidar := O.toLidar body
    if t = cloud.stamp then
      let s ← M.get
      if s.map = [] then
        addToMap O lidar t cloud
        pathLoop cloud rest (some lidar)
      else do
        let last ← M.lift (lastFrame s)
        if O.far lidar last.pose then
          addToMap O lidar t cloud
          pathLoop cloud rest (some lidar)
        else pathLoop cloud rest (some lidar)
    else
      updateMap O lidar t
      pathLoop cloud rest found

/-- `map_update_callback`, mapping-inl.hpp:177-230. -/
def mapUpdate (c : Cfg) (cloud : Cloud X) (path : List (Int × P)) : M (St P V X) Unit :=
  if path = [] then M.throw
  else do
    let found ← pathLoop O cloud path none
    match found with
    | none => M.throw
    | some pose => do
      let s ← M.get
      let region ← M.lift (match c.method with
        | .nearby => extractNearby O s c.number pose cloud.stamp
        | .past => extractPast O s c.number pose cloud.stamp)
      let out := if c.voxelLocal then { region with points := O.voxel region.points } else region
      M.modify fun s => { s with locals := s.locals ++ [out] }

/-- `publish_pose_graph_service_callback`, mapping-inl.hpp:232-253. -/
def publishPoseGraph : M (St P V X) Unit := M.modify fun s =>
  { s with graphs := s.graphs ++ [{ clouds := s.map.map (·.2.cloud),
                                    poses := s.map.map (fun e => (e.2.stamp, O.lidarFrame, e.2.pose)) }] }

/-- `publish_map_service_callback`, mapping-inl.hpp:255-282 (line 275 tests `voxel_grid_enabled_local`). A default constructed
cloud has stamp 0 and no frame. `now` is `ros::Time::now()`. -/
def publishMap (c : Cfg) (now : Int) : M (St P V X) Unit := M.modify fun s =>
  let cloud : Cloud X :=
    if s.map = [] then { stamp := 0, frame := "", points := [] }
    else s.map.foldl (fun (acc : Cloud X) e =>
      acc.append { e.2.cloud with points := e.2.cloud.points.map (O.moveMap e.2.pose) })
      { stamp := now, frame := O.mapFrame, points := [] }
  { s with globals := s.globals ++ [if c.voxelLocal then { cloud with points := O.voxel cloud.points } else cloud] }

/-- Messages and service calls. Of mapping-inl.hpp:44-50. -/
inductive Event (P X : Type) where
  | update (cloud : Cloud X) (path : List (Int × P))
  | poseGraph
  | globalMap (now : Int)

/-- A callback. Of mapping-inl.hpp:104-282. -/
def handle (c : Cfg) : Event P X → M (St P V X) Unit
  | .update cloud path => mapUpdate O c cloud path
  | .poseGraph => publishPoseGraph O
  | .globalMap now => publishMap O c now

/-- States reached by callbacks, whether they return or throw. By the callbacks of mapping-inl.hpp:104-282. -/
inductive Reach (c : Cfg) (s0 : St P V X) : List (Event P X) → St P V X → Prop
  | init : Reach c s0 [] s0
  | step {h : List (Event P X)} {s : St P V X} (e : Event P X) : Reach c s0 h s → (handle O c e s).1 ≠ .ub →
      Reach c s0 (h ++ [e]) (handle O c e s).2

end

end Mapping

end Serpent
