import Mathlib.LinearAlgebra.Matrix.NonsingularInverse
import Mathlib.Data.Real.Basic

/-!
# Specification of covariances of a registration

The estimate is the pose that minimises the cost `F(x, z)`. To first order it depends on the measurements through
`dx = -(F_xx)⁻¹ F_xz dz`.
-/

namespace Serpent

namespace Icp

open Matrix

/-- The matrix of `dx = -(F_xx)⁻¹ F_xz dz`. -/
noncomputable def sensitivity {X Z : Type} [Fintype X] [DecidableEq X] (Fxx : Matrix X X ℝ) (Fxz : Matrix X Z ℝ) : Matrix X Z ℝ :=
  -(Fxx⁻¹ * Fxz)

/-- The covariance of `A z`, if `S` is that of `z`. -/
def propagated {X Z : Type} [Fintype Z] (A : Matrix X Z ℝ) (S : Matrix Z Z ℝ) : Matrix X X ℝ := A * S * Aᵀ

/-- How errors of the ranges of the source (`false`) and target (`true`) points of `n` correspondences move the points: along the
beam. -/
def alongBeam {n : Nat} (source target : Fin n → Fin 3 → ℝ) : Matrix (Fin n × (Fin 3 ⊕ Fin 3)) (Fin n × Bool) ℝ :=
  fun a e => if a.1 = e.1 then
    match a.2, e.2 with
    | .inl i, false => source a.1 i
    | .inr i, true => target a.1 i
    | _, _ => 0
  else 0

/-- Covariance of the points for independent errors of all ranges, of variance `v`. -/
def rangeCovariance {n : Nat} (v : ℝ) (source target : Fin n → Fin 3 → ℝ) :
    Matrix (Fin n × (Fin 3 ⊕ Fin 3)) (Fin n × (Fin 3 ⊕ Fin 3)) ℝ :=
  propagated (alongBeam source target) (v • 1)

/-- Covariance of the points for independent errors of all ranges, of variance `v`, and one error of variance `b` that is added to
all ranges. -/
def rangeBiasCovariance {n : Nat} (v b : ℝ) (source target : Fin n → Fin 3 → ℝ) :
    Matrix (Fin n × (Fin 3 ⊕ Fin 3)) (Fin n × (Fin 3 ⊕ Fin 3)) ℝ :=
  propagated (alongBeam source target) (v • 1 + b • vecMulVec 1 1)

end Icp

end Serpent
