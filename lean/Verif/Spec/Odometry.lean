import Verif.Spec.Motion
import Mathlib.LinearAlgebra.CrossProduct

/-!
# Specification of exact odometry in a static world
-/

namespace Serpent

namespace Motion

open EigenExt Matrix

/-- Three points of the set are not on a line. -/
def NotCollinear (W : Set (Fin 3 → ℝ)) : Prop := ∃ a ∈ W, ∃ b ∈ W, ∃ c ∈ W, crossProduct (b - a) (c - a) ≠ 0

/-- `T` aligns what a lidar at `L'` sees of the points `W` with what a lidar at `L` sees of them: it is a rigid transform that takes
the coordinates of each point in the second frame to its coordinates in the first. -/
structure Aligns (W : Set (Fin 3 → ℝ)) (L L' T : Iso ℝ) : Prop where
  rigid : Rigid T
  takes : ∀ w ∈ W, ∀ x x', L.apply x = w → L'.apply x' = w → T.apply x' = x

end Motion

end Serpent
