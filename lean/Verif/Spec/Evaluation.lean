import Verif.Spec.Trajectory
import Verif.Model.Evaluation
import Mathlib.LinearAlgebra.Matrix.Symmetric

/-!
# What the evaluation of velocities and of registration covariances is measured against
-/

namespace Serpent

namespace Trajectory

open Matrix

/-- The contract of `eig` for symmetric matrices: orthonormal eigenvectors in columns, eigenvalues in ascending order. -/
structure Eig.Lawful (eig : Eig) : Prop where
  orthonormal : ∀ C : Matrix (Fin 3) (Fin 3) ℝ, C.IsSymm → (eig C).1ᵀ * (eig C).1 = 1
  eigen : ∀ C : Matrix (Fin 3) (Fin 3) ℝ, C.IsSymm → ∀ i, C *ᵥ (eig C).1.col i = (eig C).2 i • (eig C).1.col i
  ascending : ∀ C : Matrix (Fin 3) (Fin 3) ℝ, C.IsSymm → Monotone (eig C).2

/-- The error lies within two standard deviations of the covariance. -/
def Within (C : Matrix (Fin 3) (Fin 3) ℝ) (e : Fin 3 → ℝ) : Prop := e ⬝ᵥ (C⁻¹ *ᵥ e) < 2 ^ 2

open Classical in
/-- The fraction of the errors that lie within two standard deviations. -/
noncomputable def fractionWithin (es : List (Fin 3 → ℝ)) (cs : List (Matrix (Fin 3) (Fin 3) ℝ)) : ℝ :=
  ((es.zip cs).countP fun x => decide (Within x.2 x.1)) / (es.length : ℝ)

/-- A covariance without correlation whose variances are positive and do not decrease from x to z. -/
def AscendingDiagonal (C : Matrix (Fin 3) (Fin 3) ℝ) : Prop := ∃ c : Fin 3 → ℝ, C = diagonal c ∧ 0 < c 0 ∧ c 0 ≤ c 1 ∧ c 1 ≤ c 2

/-- The elements whose time lies between two times. -/
def Between {α : Type} (s e : ℝ) (gt part : List (ℝ × α)) : Prop :=
  part.Sublist gt ∧ (∀ x ∈ part, s ≤ x.1 ∧ x.1 ≤ e) ∧ ∀ x ∈ gt, s ≤ x.1 → x.1 ≤ e → x ∈ part

/-- A report of vector errors is that of the given vectors with respect to a reference: each error is the vector less the reference at its
time, and the length of each error and the root of the mean of their squares are given. -/
structure ReportOf (gt l : List (ℝ × (Fin 3 → ℝ))) (times : List ℝ) (r : VectorReport) : Prop where
  times : times = l.map Prod.fst
  errors : List.Forall₂ (fun e x => ∃ g, IsVectorReference gt x.1 g ∧ e = x.2 - g) r.errors l
  norms : r.norms = r.errors.map (distance 0)
  rmse : l ≠ [] → 0 ≤ r.rmse ∧ l.length * r.rmse ^ 2 = (r.errors.map fun e => distance 0 e ^ 2).sum

/-- The report of the relative errors: the changes from one error to the next, with the opposite sign, at the time of the later one. -/
structure ChangesOf (l : List (ℝ × (Fin 3 → ℝ))) (errors : List (Fin 3 → ℝ)) (times : List ℝ) (r : VectorReport) : Prop where
  times : times = (l.map Prod.fst).tail
  errors : r.errors = List.zipWith (fun e e' => e - e') errors errors.tail
  norms : r.norms = r.errors.map (distance 0)
  rmse : r.errors ≠ [] → 0 ≤ r.rmse ∧ r.errors.length * r.rmse ^ 2 = (r.errors.map fun e => distance 0 e ^ 2).sum

end Trajectory

end Serpent
