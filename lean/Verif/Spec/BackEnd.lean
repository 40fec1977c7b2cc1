import Verif.Model.BackEnd
import Verif.Spec.Graph

/-!
# Specification of the back end
-/

namespace Serpent

namespace BackEnd

open Graph

variable {Val D O C I : Type}

/-- The stereo measurement of a feature: both horizontal coordinates and the mean of the vertical ones. -/
def measurementOf (f : Feature) : StereoPoint := { uL := f.leftX, uR := f.rightX, v := (f.leftY + f.rightY) / 2 }

/-- Path entry `i` shows key `i`: its own time stamp and pose. -/
def ShowsKey (g : GM Val D) (e : PathPose Val) (i : Nat) : Prop :=
  timestamp g i = .ok e.stamp ∧ pose g i = .ok e.pose

/-- The entries of `ps` (entry `i` is key `i`) that the optimiser reports as changed. -/
def changedOnly (changed : List Key) (ps : List (PathPose Val)) : List (PathPose Val) :=
  (ps.zipIdx.filter (fun e => changed.contains (keyOf .X e.2))).map Prod.fst

/-- Factors stored for key `k`. -/
def factorsAt (g : GM Val D) (k : Int) : List (Factor D) := (g.factors.find k).getD []

/-- The graph has a factor of the given kind stored for key `k`. -/
def HasFactor (g : GM Val D) (p : PlainKind) (k : Int) : Prop := ∃ f ∈ factorsAt g k, f.kind = .plain p

/-- Everything that the optimisation of state `k` (`k > 0`) has to wait for is there: the state itself, and for each
enabled sensor its part of the problem (for stereo: the frames up to `k` were integrated or skipped). -/
structure Complete (cfg : Cfg) (g : GM Val D) (k : Int) : Prop where
  state : hasPose g k = .ok true
  time : ∃ t, timestamp g k = .ok t
  imu : cfg.imu = true → HasFactor g .combinedImu k
  reg : cfg.reg = true → HasFactor g .betweenPose k
  stereo : cfg.stereo = true → ∃ j, key g "stereo" 0 = .ok j ∧ k ≤ j

end BackEnd

end Serpent
