import Verif.Model.BackEnd

/-!
# Cloud of the stereo landmarks that the back end publishes for debugging
-/

namespace Serpent

namespace BackEnd

open Graph

variable {Val D O C I : Type}

/-- `pcl::PointCloud<pcl::PointXYZ>` with its header: the stamp counts microseconds. Used in optimisation.cpp:611-615. -/
structure PointsMessage (P : Type) where
  stamp : Int
  frame : String
  points : List P
deriving DecidableEq

/-- `to_pcl`, optimisation.cpp:28-33: the map is traversed in the order of the ids. `cast` converts the coordinates of a landmark to
`float`. -/
def landmarkPoints {P : Type} (cast : Val → P) (m : OMap Int Val) : List P :=
  m.foldl (fun cloud e => cloud ++ [cast e.2]) []

/-- optimisation.cpp:611-615. `toPCL` divides the nanoseconds of the stamp by 1000 (pcl_conversions); `t` is the stamp of the
odometry message. -/
def stereoPointsMessage {P : Type} (cast : Val → P) (mapFrame : String) (t : Int) (g : GM Val D) : Outcome (PointsMessage P) :=
  stereoLandmarks g (-1) >>= fun m => .ok ⟨t / 1000, mapFrame, landmarkPoints cast m⟩

/-- `publish` with the debugging output, optimisation.cpp:567-617. The messages of `publish` are recorded as before; the result is
the additional message. The stamp of the odometry message is `timestamp(key)` (line 570), which does not change in between. -/
def publishDebug {P : Type} (cast : Val → P) (api : Api Val D O C I) (cfg : Cfg) (points : Bool) (k : Int) :
    M (BE Val D O) (Option (PointsMessage P)) := do
  publish api cfg k
  branch (points = true) (read fun g => timestamp g k >>= fun t =>
    stereoPointsMessage cast cfg.mapFrame t g >>= fun m => .ok (some m)) (pure none)

end BackEnd

end Serpent
