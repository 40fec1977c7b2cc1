import Verif.Spec.Arrays
import Mathlib.Data.Real.Basic
import Mathlib.Data.Fin.VecNotation

/-!
# Independent notions for the messages

Nothing of the model is used here.
-/

namespace Serpent

/-- ROS lists the six components of a pose (twist) as position, orientation (linear, angular); the values list them as
orientation, position (angular, linear). `rosOrder i` is the component of the value that stands at position `i` of the
message. -/
def rosOrder : Fin 6 → Fin 6 := ![3, 4, 5, 0, 1, 2]

/-- The array of a message holds the covariance: row after row, position (linear) before orientation (angular). -/
def RosCovariance (a : List ℝ) (C : Matrix (Fin 6) (Fin 6) ℝ) : Prop := RowMajor a (C.submatrix rosOrder rosOrder)

end Serpent
