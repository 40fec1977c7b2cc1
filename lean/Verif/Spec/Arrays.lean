import Mathlib.Data.Matrix.Basic

/-!
# Independent notions for the array conversions

Nothing of the model is used here.
-/

namespace Serpent

/-- The array has the coefficients of the matrix, row after row. -/
def RowMajor {K : Type} {m n : Nat} (a : List K) (M : Matrix (Fin m) (Fin n) K) : Prop :=
  a.length = m * n ∧ ∀ (r : Fin m) (c : Fin n), a[n * r + c]? = some (M r c)

end Serpent
