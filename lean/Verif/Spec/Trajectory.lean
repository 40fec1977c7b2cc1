import Verif.Model.Trajectory
import Verif.Lemmas.Quaternion
import Verif.Lemmas.Iso
import Verif.Spec.Geometry
import Mathlib.Data.List.Forall2

/-!
# What the evaluation of trajectories is measured against
-/

namespace Serpent

namespace Trajectory

open EigenExt Matrix

/-- The contract of Matlab's functions: rotations are converted faithfully; an interpolation of orientations is an orientation, and at the
ends it is that of the ends. -/
structure Lib.Lawful (lib : Lib) : Prop where
  quatUnit : ∀ R, Quat.Rotation R → Quat.Unit (lib.rotm2quat R)
  quatMatrix : ∀ R, Quat.Rotation R → (lib.rotm2quat R).toMatrix = R
  axis : ∀ R, Quat.Rotation R → ∑ i, (lib.rotm2axang R).1 i ^ 2 = 1
  angle : ∀ R, Quat.Rotation R → 0 ≤ (lib.rotm2axang R).2 ∧ (lib.rotm2axang R).2 ≤ Real.pi
  axang : ∀ R, Quat.Rotation R → rodrigues (lib.rotm2axang R).2 (lib.rotm2axang R).1 = R
  interpUnit : ∀ p q c, Quat.Unit p → Quat.Unit q → 0 ≤ c → c ≤ 1 → Quat.Unit (lib.quatinterp p q c)
  interpZero : ∀ p q, Quat.Unit p → Quat.Unit q → (lib.quatinterp p q 0).toMatrix = p.toMatrix
  interpOne : ∀ p q, Quat.Unit p → Quat.Unit q → (lib.quatinterp p q 1).toMatrix = q.toMatrix

/-- The orientation is not the zero quaternion. -/
def Pose.Valid (p : Pose) : Prop := p.orientation ≠ ⟨0, 0, 0, 0⟩

/-- All poses are valid. -/
def Valid (l : Traj) : Prop := ∀ e ∈ l, e.2.Valid

/-- Timestamps strictly increase. -/
def Increasing {α : Type} (l : List (ℝ × α)) : Prop := l.Pairwise fun a b => a.1 < b.1

/-- `b` is `a` moved by `G`: the same timestamps, and every transform is multiplied by `G`. -/
def MovedBy (G : Iso ℝ) (a b : Traj) : Prop :=
  List.Forall₂ (fun x y => y.1 = x.1 ∧ poseToMatrix y.2 = G * poseToMatrix x.2) a b

/-- Two elements that follow one another. -/
def Neighbours {α : Type} (l : List α) (a b : α) : Prop := ∃ l1 l2, l = l1 ++ a :: b :: l2

/-- `G` is the reference at time `t`: the pose at this time, or else the position on the straight line between the neighbours, in
proportion to the time, with the orientation interpolated. -/
def IsReference (lib : Lib) (gt : Traj) (t : ℝ) (G : Iso ℝ) : Prop :=
  (∃ p, (t, p) ∈ gt ∧ G = poseToMatrix p) ∨
  ∃ a b, Neighbours gt a b ∧ a.1 < t ∧ t < b.1 ∧
    G.t = (1 - (t - a.1) / (b.1 - a.1)) • a.2.position + ((t - a.1) / (b.1 - a.1)) • b.2.position ∧
    G.R = (lib.quatinterp (normalise a.2.orientation) (normalise b.2.orientation) ((t - a.1) / (b.1 - a.1))).toMatrix

/-- The same for vectors. -/
def IsVectorReference {n : Nat} (gt : List (ℝ × (Fin n → ℝ))) (t : ℝ) (g : Fin n → ℝ) : Prop :=
  (t, g) ∈ gt ∨
  ∃ a b, Neighbours gt a b ∧ a.1 < t ∧ t < b.1 ∧ g = (1 - (t - a.1) / (b.1 - a.1)) • a.2 + ((t - a.1) / (b.1 - a.1)) • b.2

/-- The absolute errors of the poses with respect to reference transforms: what takes the reference to the pose, seen from the reference. -/
noncomputable def apesOf : List (Iso ℝ) → Traj → List (ℝ × Iso ℝ)
  | G :: Gs, (t, p) :: l => (t, G⁻¹ * poseToMatrix p) :: apesOf Gs l
  | _, _ => []

/-- The relative errors: the same for the motion from one pose to the next and the motion of the reference. -/
noncomputable def rpesOf : List (Iso ℝ) → Traj → List (ℝ × Iso ℝ)
  | G' :: G :: Gs, (_, p') :: (t, p) :: l =>
    (t, (G'⁻¹ * G)⁻¹ * ((poseToMatrix p')⁻¹ * poseToMatrix p)) :: rpesOf (G :: Gs) ((t, p) :: l)
  | _, _ => []

/-- The distance of points. -/
noncomputable def distance (a b : Fin 3 → ℝ) : ℝ := Real.sqrt (∑ i, (a i - b i) ^ 2)

/-- The sum of the distances between successive positions. -/
noncomputable def pathLength : List (Fin 3 → ℝ) → ℝ
  | [] => 0
  | [_] => 0
  | p :: q :: l => distance p q + pathLength (q :: l)

/-- The weighted sum of squared distances between the corrected positions and the reference positions. -/
noncomputable def loss (gamma : ℝ) (R : Matrix (Fin 3) (Fin 3) ℝ) (t : Fin 3 → ℝ) (es : List ((Fin 3 → ℝ) × (Fin 3 → ℝ))) : ℝ :=
  (es.zipIdx.map fun e => gamma ^ e.2 * distance (R *ᵥ e.1.1 + t) e.1.2 ^ 2).sum

end Trajectory

end Serpent
