import Verif.Model.LidarOptions
import Verif.Model.RosNetwork

/-!
# Model of the lidar pipeline: which subscriptions the filter and the node create

serpent/src/front_end/lidar/pointcloud_filter.cpp ("filter.cpp") and serpent/src/nodes/node.cpp ("node.cpp";
serpent/src/nodes/frontend_node.cpp:22-54 is the same for the subscriptions modelled here). What the filters of PCL and the normal
estimation compute is a parameter.
-/

namespace Serpent

namespace Lidar

open Ros

/-- The callbacks of the pipeline. Made in node.cpp:36-68. -/
inductive Stage where
  | voxel | body | range | outliers | sample | unitVectors | normals
deriving DecidableEq, Repr

/-- The parameters read by the constructor of `PointcloudFilter`, filter.cpp:12-16, 81 and 85; those that are only handed to PCL
are not modelled. -/
structure FilterConfig where
  voxel : Bool
  body : Bool
  range : Bool
  outliers : Bool
  sample : Bool
  sampleSize : Int
  seed : Int
deriving DecidableEq, Repr

/-- `final_output_topic`, filter.cpp:11; `output_topic()`, filter.cpp:101-103. -/
def finalTopic : String := "filter/filtered_pointcloud"

/-- One block of the constructor: if the filter is enabled, it subscribes to `input_topic`, publishes on `output_topic`, and
`input_topic` becomes the topic it publishes on (filter.cpp:29-38, 43-57, 61-69, 73-79). -/
def addStage (enabled : Bool) (stage : Stage) (output : String) (s : List (Link Stage) × String) : List (Link Stage) × String :=
  if enabled then (s.1 ++ [⟨stage, s.2, output⟩], output) else s

/-- Constructor of `PointcloudFilter`, filter.cpp:10-99: the subscriptions it makes. -/
def pointcloudFilter (c : FilterConfig) (input : String) : Outcome (List (Link Stage)) :=
  let s : List (Link Stage) × String := ([], input)
  let s := addStage c.voxel .voxel
    (if c.sample || c.outliers || c.range || c.body then "filter/voxel_filtered_pointcloud" else finalTopic) s
  let s := addStage c.body .body (if c.sample || c.outliers || c.range then "filter/body_filtered_pointcloud" else finalTopic) s
  let s := addStage c.range .range (if c.sample || c.outliers then "filter/range_filtered_pointcloud" else finalTopic) s
  let s := addStage c.outliers .outliers (if c.sample then "filter/sor_filtered_pointcloud" else finalTopic) s
  if c.sample = true ∧ c.sampleSize < 0 then .throws
  else if c.sample = true ∧ c.seed < 0 then .throws
  else .ok (addStage c.sample .sample finalTopic s).1

/-- What the callbacks publish, filter.cpp:105-135, pointcloud_add_unit_vectors.cpp:20-26 and
pointcloud_normal_estimation-inl.hpp:69-84: `pcl stage n` is the `n`-th computation of a stage. -/
def callback {C : Type} (hasRange : C → Bool) (pcl : Stage → Nat → C → Outcome C) (stage : Stage) (n : Nat) (c : C) : Outcome C :=
  if stage = .range ∧ hasRange c = false then .throws else pcl stage n c

/-- node.cpp:36-68 (frontend_node.cpp:24-54): the subscriptions of the filter, of the computation of unit vectors and of the
normal estimation, made when registration factors are enabled; `frontend/deskewed_pointcloud` is
`frontend.output_pointcloud_topic()`. -/
def lidarNode (c : FilterConfig) (covMethod pointMethod : String) : Outcome (List (Link Stage)) :=
  requiresUnitVectorsNamed covMethod pointMethod >>= fun addUnitVectors =>
  let input := "frontend/deskewed_pointcloud"
  (if c.voxel || c.body || c.range || c.outliers || c.sample then
    pointcloudFilter c input >>= fun links => .ok (links, finalTopic)
  else .ok ([], input)) >>= fun s =>
  let s := addStage addUnitVectors .unitVectors "add_unit_vectors/pointcloud" s
  .ok (s.1 ++ [⟨.normals, s.2, "normal_estimation/pointcloud"⟩])

end Lidar

end Serpent
