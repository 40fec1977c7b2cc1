import Verif.Spec.Derivatives
import Verif.Spec.Geometry

/-!
# Specification of the costs of the nonlinear models
-/

namespace Serpent

namespace Icp

open Matrix

/-- The difference between the moved source point and the target point. -/
noncomputable def residual (w : Var → ℝ) : Fin 3 → ℝ := expRotation (rOf w) *ᵥ pOf w + tOf w - qOf w

/-- Cost of a correspondence of the point-to-point model. -/
noncomputable def pointCost (w : Var → ℝ) : ℝ := residual w ⬝ᵥ residual w

/-- Cost of a correspondence of the point-to-plane model; `n` is the normal. -/
noncomputable def planeCost (n : Fin 3 → ℝ) (w : Var → ℝ) : ℝ := (n ⬝ᵥ residual w) ^ 2

end Icp

end Serpent
