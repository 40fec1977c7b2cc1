import Verif.Model.Registration
import Verif.Model.CloudTransform

/-!
# Model of the clouds that the registration publishes for debugging

serpent/include/serpent/front_end/lidar/registration-inl.hpp ("registration-inl.hpp"):180-195, 223-365 and
serpent/include/serpent/front_end/lidar/transform_pointcloud-inl.hpp ("transform_pointcloud-inl.hpp"). The callbacks are those of
Model/Registration, written again with the debugging output. Simplifications as there; the conversions between `float` and `double`
are the identity.
-/

namespace Serpent

namespace Lidar

open EigenExt CloudTransform

/-- `publish_registration_clouds` and `publish_registration_clouds_alt`, registration-inl.hpp:180-192. The second member is only set,
and only read, if the first is true. -/
structure DebugOptions where
  clouds : Bool
  alt : Bool

/-- The publishers, registration-inl.hpp:186-196. -/
inductive DebugTopic where
  | previous
  | current
  | imuGuess
  | s2s
  | s2m
  | s2sAlt
  | s2mAlt
deriving DecidableEq, Repr

/-- The topics, registration-inl.hpp:186-196. -/
def DebugTopic.name : DebugTopic → String
  | .previous => "debug/previous_pointcloud"
  | .current => "debug/current_pointcloud"
  | .imuGuess => "debug/imu_guess_pointcloud"
  | .s2s => "debug/s2s_transformed_pointcloud"
  | .s2m => "debug/s2m_transformed_pointcloud"
  | .s2sAlt => "debug/s2s_transformed_pointcloud_alt"
  | .s2mAlt => "debug/s2m_transformed_pointcloud_alt"

/-- The point types that `transform_pointcloud` distinguishes: all others, `PointNormalUnit`, `PointNormalCovariance`.
transform_pointcloud-inl.hpp:12-46. -/
inductive PointKind where
  | normals
  | units
  | covariances
deriving DecidableEq, Repr

section
variable {K F P : Type} [CommRing K]

/-- Loop body of `pcl::transformPointCloudWithNormals` (PCL). Called in transform_pointcloud-inl.hpp:15. -/
def bodyNormal (T : Iso K) (p q : Point K F) : Point K F := { q with pos := se3 T p.pos, normal := so3 T p.normal }

/-- `transform_pointcloud` into a new cloud, transform_pointcloud-inl.hpp:12-46; all fields are copied first. -/
def transformPointcloud (kind : PointKind) (f0 : F) (src : Cloud K F) (T : Iso K) : Cloud K F :=
  let out : Cloud K F := ⟨0, "", 0, 0, true, []⟩
  match kind with
  | .normals => transformWith (bodyNormal T) f0 src (some out) true
  | .units => transformUnits f0 src (some out) T true
  | .covariances => transformCovs f0 src (some out) T true

/-- What the registration computes, and the clouds that `align` fills (its first argument); `frame` is
`body_frames.frame_id("lidar")`. For registration-inl.hpp:223-365. -/
structure DebugOps (K F P : Type) extends RegOps (Cloud K F) (Iso K) P where
  s2sCloud : Cloud K F → Cloud K F → Iso K → Cloud K F
  s2mCloud : Cloud K F → Cloud K F → Iso K → Cloud K F
  kind : PointKind
  default : F
  frame : String

/-- The state of the registration and what was published for debugging, in order. For registration-inl.hpp:223-365. -/
structure DebugState (K F P : Type) where
  reg : RegState (Cloud K F) (Iso K) P
  debug : List (DebugTopic × Cloud K F)

/-- Initial state. After registration-inl.hpp:73-197. -/
def DebugState.init : DebugState K F P := ⟨RegState.init, []⟩

/-- Before the alignment, registration-inl.hpp:235-255. -/
def guessClouds (o : DebugOptions) (ops : DebugOps K F P) (cloud prev : Cloud K F) (guess : Iso K) : List (DebugTopic × Cloud K F) :=
  if o.clouds then
    [(.current, { cloud with stamp := prev.stamp, frame := ops.frame }),
      (.previous, { prev with frame := ops.frame }),
      (.imuGuess, { transformPointcloud ops.kind ops.default cloud guess with stamp := prev.stamp, frame := ops.frame })]
  else []

/-- After the alignment, registration-inl.hpp:263-286: `registered` is the cloud filled by `align`, with the stamp of the previous
scan. -/
def resultClouds (o : DebugOptions) (ops : DebugOps K F P) (cloud prev : Cloud K F) (guess result : Iso K) :
    List (DebugTopic × Cloud K F) :=
  let registered : Cloud K F := { ops.s2sCloud cloud prev guess with stamp := prev.stamp, frame := ops.frame }
  if o.clouds then
    (.s2s, registered) ::
      (if o.alt then
        [(.s2sAlt, { transformPointcloud ops.kind ops.default cloud result with
          stamp := registered.stamp, frame := registered.frame })]
      else [])
  else []

/-- After the alignment to the map, registration-inl.hpp:337-362: `registered` has the stamp of the map. -/
def mapClouds (o : DebugOptions) (ops : DebugOps K F P) (cloud map : Cloud K F) (guess result : Iso K) :
    List (DebugTopic × Cloud K F) :=
  let registered : Cloud K F := { ops.s2mCloud cloud map guess with stamp := map.stamp, frame := ops.frame }
  if o.clouds then
    (.s2m, registered) ::
      (if o.alt then
        [(.s2mAlt, { transformPointcloud ops.kind ops.default cloud result with
          stamp := registered.stamp, frame := registered.frame })]
      else [])
  else []

/-- `s2s_callback`, registration-inl.hpp:223-313. -/
def s2sCallbackDebug (o : DebugOptions) (ops : DebugOps K F P) (s2mEnabled : Bool) (s : DebugState K F P) (cloud : Cloud K F)
    (guess : Iso K) : DebugState K F P :=
  match s.reg.previous with
  | none => ⟨{ s.reg with previous := some cloud }, s.debug⟩
  | some prev =>
    let before := s.debug ++ guessClouds o ops cloud prev guess
    let result := ops.s2s cloud prev guess
    let after := before ++ resultClouds o ops cloud prev guess result
    if ops.normalsOk prev = false then ⟨{ s.reg with alive := false }, after⟩
    else if s2mEnabled then
      ⟨{ s.reg with clouds := s.reg.clouds ++ [cloud], results := s.reg.results ++ [result], previous := some cloud }, after⟩
    else
      match ops.refined cloud prev result with
      | .ok p => ⟨{ s.reg with published := s.reg.published ++ [p], previous := some cloud }, after⟩
      | _ => ⟨{ s.reg with alive := false, previous := some cloud }, after⟩

/-- The rest of `s2m_callback`, registration-inl.hpp:330-365. -/
def s2mFinishDebug (o : DebugOptions) (ops : DebugOps K F P) (s : DebugState K F P) : DebugState K F P :=
  match s.reg.busy with
  | none => s
  | some (map, cloud, guess) =>
    let result := ops.s2m cloud map guess
    let after := s.debug ++ mapClouds o ops cloud map guess result
    match ops.refined cloud map result with
    | .ok p => ⟨{ s.reg with busy := none, published := s.reg.published ++ [p] }, after⟩
    | _ => ⟨{ s.reg with busy := none, alive := false }, after⟩

/-- One event; after the end of the process nothing happens. Callbacks of registration-inl.hpp:223-365. -/
def debugStep (o : DebugOptions) (ops : DebugOps K F P) (s2mEnabled : Bool) (s : DebugState K F P)
    (e : RegEvent (Cloud K F) (Iso K)) : DebugState K F P :=
  if s.reg.alive = false then s
  else match e with
    | .scan cloud guess => s2sCallbackDebug o ops s2mEnabled s cloud guess
    | .map m => ⟨{ s.reg with maps := s.reg.maps ++ [m] }, s.debug⟩
    | .take => ⟨s2mTake s.reg, s.debug⟩
    | .finish => s2mFinishDebug o ops s

/-- A run. Callbacks of registration-inl.hpp:223-365. -/
def debugRun (o : DebugOptions) (ops : DebugOps K F P) (s2mEnabled : Bool) (events : List (RegEvent (Cloud K F) (Iso K))) :
    DebugState K F P :=
  events.foldl (debugStep o ops s2mEnabled) DebugState.init

end

end Lidar

end Serpent
