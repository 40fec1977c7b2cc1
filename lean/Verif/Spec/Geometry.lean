import Mathlib.LinearAlgebra.CrossProduct
import Mathlib.LinearAlgebra.Matrix.Notation
import Mathlib.Analysis.SpecialFunctions.Trigonometric.Inverse
import Mathlib.LinearAlgebra.Matrix.Trace
import Mathlib.Analysis.SpecialFunctions.Sqrt

/-!
# Independent notions of geometry

Nothing of the model is used here.
-/

namespace Serpent

open Matrix

/-- Velocity at the point `p` of a rigid body with twist (angular velocity, velocity at the origin). -/
def velocityAt {K : Type} [CommRing K] (twist : Fin 3 ⊕ Fin 3 → K) (p : Fin 3 → K) : Fin 3 → K :=
  (twist ∘ Sum.inl) ⨯₃ p + twist ∘ Sum.inr

/-- Cross product matrix. -/
def skewOf {K : Type} [CommRing K] (u : Fin 3 → K) : Matrix (Fin 3) (Fin 3) K :=
  !![0, -u 2, u 1; u 2, 0, -u 0; -u 1, u 0, 0]

/-- Rotation about the unit vector `u` by the angle `a` (Rodrigues). -/
noncomputable def rodrigues (a : ℝ) (u : Fin 3 → ℝ) : Matrix (Fin 3) (Fin 3) ℝ :=
  1 + Real.sin a • skewOf u + (1 - Real.cos a) • (skewOf u * skewOf u)

/-- The rotation of a rotation vector: about its direction, by its length. -/
noncomputable def expRotation (w : Fin 3 → ℝ) : Matrix (Fin 3) (Fin 3) ℝ :=
  let a := Real.sqrt (∑ i, w i ^ 2)
  if a = 0 then 1 else rodrigues a (fun i => w i / a)

/-- The angle of a rotation. -/
noncomputable def rotationAngle (R : Matrix (Fin 3) (Fin 3) ℝ) : ℝ := Real.arccos ((R.trace - 1) / 2)

/-- The point with polar coordinates: range, azimuth from the x axis, elevation from the z axis. -/
noncomputable def ofPolar (r a e : ℝ) : Fin 3 → ℝ :=
  ![r * Real.sin e * Real.cos a, r * Real.sin e * Real.sin a, r * Real.cos e]

end Serpent
