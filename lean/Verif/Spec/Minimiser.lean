import Mathlib.Analysis.Calculus.FDeriv.Basic
import Mathlib.Topology.Order.LocalExtr
import Mathlib.Topology.Algebra.Module.FiniteDimension
import Mathlib.LinearAlgebra.Matrix.ToLin

/-!
# Specification of an estimate that minimises a cost

A cost depends on a pose (variables `X`) and on data (variables `Z`).
-/

namespace Serpent

namespace Icp

open Topology

/-- Pose `y` minimises the cost locally, for the data `z`. -/
def Minimises {X Z : Type} (F : (X ⊕ Z → ℝ) → ℝ) (y : X → ℝ) (z : Z → ℝ) : Prop := IsLocalMin (fun y' => F (Sum.elim y' z)) y

/-- `x` is the estimate as a function of the data: at `z₀` it is `x₀`, for data near `z₀` it minimises the cost, and near `x₀` there is
no other minimiser. -/
def IsEstimate {X Z : Type} (F : (X ⊕ Z → ℝ) → ℝ) (x₀ : X → ℝ) (z₀ : Z → ℝ) (x : (Z → ℝ) → X → ℝ) : Prop :=
  x z₀ = x₀ ∧ (∀ᶠ z in 𝓝 z₀, Minimises F (x z) z) ∧ ∀ᶠ v in 𝓝 (x₀, z₀), Minimises F v.1 v.2 → v.1 = x v.2

/-- `A` is the matrix of the derivative of `x` at `z₀`. -/
def HasJacobianAt {X Z : Type} [Fintype X] [Fintype Z] [DecidableEq Z] (x : (Z → ℝ) → X → ℝ) (A : Matrix X Z ℝ) (z₀ : Z → ℝ) : Prop :=
  HasFDerivAt x (LinearMap.toContinuousLinearMap (Matrix.toLin' A)) z₀

end Icp

end Serpent
