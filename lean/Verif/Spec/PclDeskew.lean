import Verif.Spec.PclCloud
import Mathlib.Analysis.SpecialFunctions.Trigonometric.Basic
import Mathlib.LinearAlgebra.Matrix.Notation
import Verif.Model.EigenExt

/-!
# Specification of deskewing
-/

namespace Serpent

namespace Pcl

open Matrix

/-- Rotation about the axis `a` (of length one) by the angle `θ`, by the formula of Rodrigues. -/
noncomputable def rotationAbout (a : Fin 3 → ℝ) (θ : ℝ) : Matrix (Fin 3) (Fin 3) ℝ :=
  let K : Matrix (Fin 3) (Fin 3) ℝ := !![0, -a 2, a 1; a 2, 0, -a 0; -a 1, a 0, 0]
  1 + Real.sin θ • K + (1 - Real.cos θ) • (K * K)

/-- The pose of the sensor at time `τ`, relative to the start: rotation about a fixed axis and translation along a line, both at
constant rates; after `dt` it has turned by `θ` and moved by `d`. -/
noncomputable def poseAt (a : Fin 3 → ℝ) (θ : ℝ) (d : Fin 3 → ℝ) (dt τ : ℝ) : EigenExt.Iso ℝ :=
  ⟨rotationAbout a (τ / dt * θ), (τ / dt) • d⟩

/-- `v'` is what is read after `v`, of type `T`, was converted to type `t` and stored. -/
def Stored (cd : Codec ℝ) (T t : FT) (v v' : ℝ) : Prop := ∃ w, castTo cd T t v = .ok w ∧ v' = cd.dec t (cd.enc t w)

end Pcl

end Serpent
