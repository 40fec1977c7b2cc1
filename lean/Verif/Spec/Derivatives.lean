import Mathlib.Analysis.Calculus.Deriv.Basic
import Mathlib.LinearAlgebra.CrossProduct
import Mathlib.LinearAlgebra.Matrix.Notation
import Mathlib.Algebra.BigOperators.Group.Finset.Basic

/-!
# Specification of derivatives of the cost of a correspondence

The cost of a correspondence is a function of twelve numbers: the pose (rotation vector `r` and translation `t`) and the measured
points (source `p` and target `q`).
-/

namespace Serpent

namespace Icp

open Matrix Topology

/-- Names of the twelve variables: `inl`: pose (`r`, then `t`), `inr`: measurement (`p`, then `q`). -/
abbrev Var := (Fin 3 ⊕ Fin 3) ⊕ (Fin 3 ⊕ Fin 3)

/-- The variables with the given values. -/
def vars {K : Type} (r t p q : Fin 3 → K) : Var → K := Sum.elim (Sum.elim r t) (Sum.elim p q)

section
variable {K : Type} (w : Var → K)

/-- The rotation vector. -/
def rOf : Fin 3 → K := fun i => w (.inl (.inl i))
/-- The translation. -/
def tOf : Fin 3 → K := fun i => w (.inl (.inr i))
/-- The source point. -/
def pOf : Fin 3 → K := fun i => w (.inr (.inl i))
/-- The target point. -/
def qOf : Fin 3 → K := fun i => w (.inr (.inr i))

end

/-- `v` is the second partial derivative of `F` by the variables `i` and `j` at `x`: near `x` the partial derivative by variable
`j` exists, and its partial derivative by variable `i` at `x` is `v`. -/
def IsSecondPartial {V : Type} [DecidableEq V] (F : (V → ℝ) → ℝ) (i j : V) (x : V → ℝ) (v : ℝ) : Prop :=
  ∃ G : (V → ℝ) → ℝ, (∀ᶠ y in 𝓝 x, HasDerivAt (fun s => F (Function.update y j s)) (G y) (y j)) ∧
    HasDerivAt (fun s => G (Function.update x i s)) v (x i)

/-- The difference between the moved source point and the target point, with the rotation replaced by its first order
approximation. -/
def linearResidual (w : Var → ℝ) : Fin 3 → ℝ := pOf w + crossProduct (rOf w) (pOf w) + tOf w - qOf w

/-- Cost of a correspondence of the linearised point-to-point model. -/
def pointLinCost (w : Var → ℝ) : ℝ := linearResidual w ⬝ᵥ linearResidual w

/-- Cost of a correspondence of the linearised point-to-plane model; `n` is the normal. -/
def planeLinCost (n : Fin 3 → ℝ) (w : Var → ℝ) : ℝ := (n ⬝ᵥ linearResidual w) ^ 2

/-- Names of the variables of the cost of `n` correspondences: one pose, and a measurement for each correspondence. -/
abbrev AllVar (n : Nat) := (Fin 3 ⊕ Fin 3) ⊕ (Fin n × (Fin 3 ⊕ Fin 3))

/-- The variables of correspondence `k`. -/
def varsOf {n : Nat} (w : AllVar n → ℝ) (k : Fin n) : Var → ℝ := Sum.elim (fun i => w (.inl i)) (fun i => w (.inr (k, i)))

/-- The cost of a list of correspondences is the sum of their costs. -/
def totalCost {n : Nat} (cost : Fin n → (Var → ℝ) → ℝ) (w : AllVar n → ℝ) : ℝ := ∑ k, cost k (varsOf w k)

/-- All variables with the given values: the pose, and the two points of each correspondence. -/
def allVars {n : Nat} (r t : Fin 3 → ℝ) (p q : Fin n → Fin 3 → ℝ) : AllVar n → ℝ :=
  Sum.elim (Sum.elim r t) (fun k => Sum.elim (p k.1) (q k.1) k.2)

end Icp

end Serpent
