import Verif.Model.Motion
import Verif.Model.MappingReal

/-!
# Model of the chain from the registration to the map

How the results of successive alignments become the poses of the states (`serpent/src/back_end/optimisation.cpp`), how the poses are
published as a path, and how the mapping node reads them (`serpent/include/serpent/mapping/mapping-inl.hpp`). When these pieces run
is modelled in `Verif/Model/BackEnd.lean` and `Verif/Model/Mapping.lean`.

Simplification: the optimiser is not part of the chain; what it may return is the subject of the theorems about the back end.
-/

namespace Serpent

namespace Motion

open EigenExt EigenRos

/-- The poses of the states after the alignments with the given results, oldest first: registration-inl.hpp:205-218 and
optimisation.cpp:272-274 and 291 for each of them. -/
noncomputable def odometryPoses (f : Frames) : Pose3 → List (Iso ℝ) → Outcome (List Pose3)
  | P, [] => .ok [P]
  | P, T :: Ts =>
    refinedPose f T >>= fun m =>
    odometryPoses f (poseFromRegistration P m) Ts >>= fun l => .ok (P :: l)

/-- The measurement of the factor between two states, optimisation.cpp:273-274 and 295. -/
def registrationPose (msg : PoseMsg) : Pose3 := ⟨(fromQuaternion msg.orientation).toMatrix, fromPoint msg.position⟩

/-- `convert_to_path`, optimisation.cpp:777-783: the entries for the states, from key `k` on. -/
noncomputable def pathEntries (pre : String) : Nat → List (Int × Pose3) → List PoseStampedMsg
  | _, [] => []
  | k, (t, P) :: rest =>
    ⟨{ HeaderMsg.empty with stamp := t, frameId := pre ++ "_" ++ toString k }, poseToRos P⟩ :: pathEntries pre (k + 1) rest

/-- mapping-inl.hpp:195-197: stamps and poses of the body, as the mapping node reads them. -/
def readPath (entries : List PoseStampedMsg) : List (Int × Mapping.Pose) :=
  entries.map fun e =>
    let p := fromPoseStamped e ⟨0, Pose.default⟩
    (p.stamp, ⟨p.data.position, p.data.orientation⟩)

end Motion

end Serpent
