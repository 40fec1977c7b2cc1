import Verif.Model.Mapping
import Verif.Model.Quaternion

/-!
# The geometry of the mapping node

Instance of `Mapping.Ops` over the real numbers. Of the points of a cloud only the position is kept here (the other fields are
treated in `Verif.Model.CloudTransform`); of a pose, position and orientation (`map_update_callback` never uses the
covariance).
-/

namespace Serpent

namespace Mapping

open EigenExt

/-- `eigen_ros::Pose`, eigen_ros/include/eigen_ros/pose.hpp:10-28, without covariance. -/
structure Pose where
  position : Fin 3 → ℝ
  orientation : Quat

/-- `to_transform`, eigen_ros/src/pose.cpp:51-53. -/
def Pose.toTransform (p : Pose) : Iso ℝ := ⟨p.orientation.toMatrix, p.position⟩

/-- `Pose{isometry}`, eigen_ros/src/pose.cpp:20-21. -/
noncomputable def Pose.ofTransform (T : Iso ℝ) : Pose := ⟨T.t, Quat.ofMatrix T.R⟩

/-- `should_add_to_map`, mapping-inl.hpp:284-290. -/
noncomputable def shouldAddToMap (distanceThreshold rotationThreshold : ℝ) (new previous : Pose) : Bool :=
  open Classical in
  let d := new.position - previous.position
  let distance := Real.sqrt (d 0 * d 0 + d 1 * d 1 + d 2 * d 2)
  let rotation := new.orientation.angularDistance previous.orientation
  decide (distance > distanceThreshold ∨ rotation > rotationThreshold)

/-- The mapping node with poses and points in space. The search tree of PCL uses the position (`DefaultPointRepresentation` of
`PointAngleAxis` takes the first three coordinates). For mapping-inl.hpp:104-301. -/
noncomputable def realOps (bodyToLidar : Iso ℝ) (distanceThreshold rotationThreshold : ℝ)
    (knn : List (Fin 3 → ℝ) → (Fin 3 → ℝ) → Nat → List Nat) (voxel : List (Fin 3 → ℝ) → List (Fin 3 → ℝ))
    (lidarFrame mapFrame : String) : Ops Pose (Fin 3 → ℝ) (Fin 3 → ℝ) where
  toLidar body := Pose.ofTransform (body.toTransform * bodyToLidar)
  far := shouldAddToMap distanceThreshold rotationThreshold
  point p := p.position
  knn := knn
  move target pose := (target.toTransform⁻¹ * pose.toTransform).apply
  moveMap pose := pose.toTransform.apply
  voxel := voxel
  lidarFrame := lidarFrame
  mapFrame := mapFrame

end Mapping

end Serpent
