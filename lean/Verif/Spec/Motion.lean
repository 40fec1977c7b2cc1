import Verif.Model.Motion
import Verif.Lemmas.Iso
import Verif.Spec.PclDeskew
import Verif.Spec.EigenRos
import Verif.Spec.Utilities
import Mathlib.LinearAlgebra.Matrix.PosDef

/-!
# Specification of the motions and states that are exchanged

Conventions: a pose of a frame takes coordinates in that frame to coordinates in the map. A mounting is the pose of a sensor in the
body: when the body has the pose `A`, the sensor has the pose `A * X`.
-/

namespace Serpent

namespace Motion

open EigenExt EigenRos Matrix

/-- The sensor `name` is mounted on the body with the pose `X`, a rigid transform. -/
structure Mounted (f : Frames) (name : String) (X : Iso ℝ) : Prop where
  rigid : Rigid X
  bodyTo : f.bodyTo name 0 = .ok X
  toBody : f.toBody name 0 = .ok X⁻¹

/-- The pose of the body in a state. -/
def bodyPose (x : NavState) : Iso ℝ := ⟨x.R, x.t⟩

/-- The pose of `gtsam` as a transform. -/
def isoOf (P : Pose3) : Iso ℝ := ⟨P.R, P.t⟩

/-- `L` is the motion of a sensor with the mounting `X` while the body moves from pose `A` to pose `B`: seen from the pose of the
sensor before, `L` is the pose of the sensor after. -/
def IsSensorMotion (A B X L : Iso ℝ) : Prop := A * X * L = B * X

/-- The measurements that hold during an interval, with their durations in seconds (zero-order hold). -/
noncomputable def heldDuring (buffer : List Imu) (start stop : Int) : List Measured :=
  (Utils.segments (buffer.map Imu.data) start stop).map fun x =>
    ⟨x.1.data.linearAcceleration, x.1.data.angularVelocity, (x.2 : ℝ) / 1000000000⟩

/-- North, east, down to north, west, up. -/
def nedToNwu : Matrix (Fin 3) (Fin 3) ℝ := !![1, 0, 0; 0, -1, 0; 0, 0, -1]

/-- East, north, up to north, west, up. -/
def enuToNwu : Matrix (Fin 3) (Fin 3) ℝ := !![0, 1, 0; -1, 0, 0; 0, 0, 1]

/-- The covariance of a pose or twist with independent angular and linear parts. -/
def Independent (C : Matrix (Fin 6) (Fin 6) ℝ) (angular linear : Matrix (Fin 3) (Fin 3) ℝ) : Prop :=
  ∀ i j : Fin 3, C ⟨i, by omega⟩ ⟨j, by omega⟩ = angular i j ∧ C ⟨i, by omega⟩ ⟨3 + j, by omega⟩ = 0 ∧
    C ⟨3 + i, by omega⟩ ⟨j, by omega⟩ = 0 ∧ C ⟨3 + i, by omega⟩ ⟨3 + j, by omega⟩ = linear i j

/-- The orientation in the message is the rotation `R`. -/
def HasRotation (q : QuaternionMsg) (R : Matrix (Fin 3) (Fin 3) ℝ) : Prop :=
  q.w ^ 2 + q.x ^ 2 + q.y ^ 2 + q.z ^ 2 = 1 ∧ (fromQuaternion q).toMatrix = R

/-- The covariances in the message have 36 coefficients (in C++ this is part of the type). -/
def SizedOdometry (m : OdometryMsg) : Prop := m.pose.covariance.length = 36 ∧ m.twist.covariance.length = 36

end Motion

end Serpent
