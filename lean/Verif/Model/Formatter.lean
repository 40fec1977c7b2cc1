import Verif.Model.PclCloud
import Verif.Model.LidarOptions
import Verif.Basic.Outcome

/-!
# Model of the node that formats pointclouds

serpent/src/front_end/lidar/pointcloud_formatter.cpp ("formatter.cpp"). The conversion of the ROS message to
`pcl::PCLPointCloud2` (formatter.cpp:35-36) is not modelled: messages are clouds. The constants `1.0e-9` and `1.0e-3` are the
parameters `nano` and `milli`. Enumeration values that are not enumerators are not modelled (formatter.cpp:50-51).
-/

namespace Serpent

namespace Lidar

open Pcl

/-- The members set by the constructor, formatter.cpp:10-25; `frame` is `body_frames.frame_id("lidar")`. -/
structure FormatterConfig (K : Type) where
  sensor : SensorType
  timeFilter : Bool
  maxTime : K
  removeFirst : Bool
  frame : String
  nano : K
  milli : K

/-- `first_pointcloud_removed` and what was published. Used in formatter.cpp:55-74. -/
structure FormatterState where
  removed : Bool
  published : List Cloud
deriving DecidableEq

section
variable {K : Type} [Mul K] (cd : Codec K) (le : K → K → Bool) (cfg : FormatterConfig K)

/-- formatter.cpp:39-52. -/
def formatSensor (c : Cloud) : Outcome Cloud :=
  match cfg.sensor with
  | .ouster =>
    castFieldWithScale cd .float32 c "t" cfg.nano >>= fun c => castFieldWithScale cd .float32 c "range" cfg.milli
  | .custom => if !hasField c "t" && hasField c "time" then changeFieldName c "time" "t" else .ok c

/-- formatter.cpp:55-71. -/
def formatTime (c : Cloud) : Outcome Cloud :=
  if cfg.timeFilter then
    if hasField c "t" = false then .throws
    else getField c "t" >>= fun t =>
      if t.datatype ≠ FT.float32.code then .throws else filterMax cd le .float32 c Cloud.empty t cfg.maxTime
  else .ok c

/-- formatter.cpp:35-74: the cloud that is published for a message. -/
def formatted (c : Cloud) : Outcome Cloud :=
  formatSensor cd cfg c >>= fun c => formatTime cd le cfg c >>= fun c =>
  .ok { c with header := { c.header with frame := cfg.frame } }

/-- `PointcloudFormatter::format`, formatter.cpp:27-78. -/
def format (c : Cloud) (s : FormatterState) : Outcome Unit × FormatterState :=
  if cfg.removeFirst = true ∧ s.removed = false then (.ok (), { s with removed := true })
  else match formatted cd le cfg c with
    | .ok c => (.ok (), { s with published := s.published ++ [c] })
    | .throws => (.throws, s)
    | .ub => (.ub, s)

/-- The node gets messages one after the other; an exception ends it. Calls of formatter.cpp:27-78. -/
def formatRun : List Cloud → FormatterState → Outcome Unit × FormatterState
  | [], s => (.ok (), s)
  | c :: cs, s => match format cd le cfg c s with
    | (.ok (), s) => formatRun cs s
    | r => r

end

end Lidar

end Serpent
