import Mathlib.Data.Matrix.Block
import Mathlib.LinearAlgebra.Matrix.NonsingularInverse
import Mathlib.Data.Real.Basic

/-!
# Information of two unknowns linked by a linear relation

Nothing of the model is used here.
-/

namespace Serpent

open Matrix

/-- `Λ` is the information matrix of the unknowns `(x, y)`, where `x` has covariance `P`, and `y` is `H x` plus an independent
error with covariance `Q`: the squared error of `(x, y)` is the sum of the squared errors of `x` and of `y - H x`. -/
def IsInformation {n : Type} [Fintype n] [DecidableEq n] (P Q H : Matrix n n ℝ) (L : Matrix (n ⊕ n) (n ⊕ n) ℝ) : Prop :=
  L.IsSymm ∧ ∀ x y : n → ℝ, Sum.elim x y ⬝ᵥ (L *ᵥ Sum.elim x y) =
    x ⬝ᵥ (P⁻¹ *ᵥ x) + (y - H *ᵥ x) ⬝ᵥ (Q⁻¹ *ᵥ (y - H *ᵥ x))

/-- Squared error of `x` with covariance `P`. -/
noncomputable def squaredError {n : Type} [Fintype n] [DecidableEq n] (P : Matrix n n ℝ) (x : n → ℝ) : ℝ := x ⬝ᵥ (P⁻¹ *ᵥ x)

/-- Total squared error of a chain: the first unknown has covariance `P`; the unknown `i + 1` is `H i` times the unknown `i`
plus an error with covariance `Q i`. -/
noncomputable def chainError {n : Type} [Fintype n] [DecidableEq n] (P : Matrix n n ℝ) (H Q : Nat → Matrix n n ℝ)
    (length : Nat) (x : Nat → n → ℝ) : ℝ :=
  squaredError P (x 0) + ∑ i ∈ Finset.range length, squaredError (Q i) (x (i + 1) - H i *ᵥ x i)

end Serpent
