import Verif.Model.RegistrationDebug
import Verif.Spec.Registration

/-!
# What the clouds for debugging show
-/

namespace Serpent

namespace Lidar

open EigenExt CloudTransform Matrix

variable {K F : Type}

/-- What was published on a topic, in order. -/
def onTopic (t : DebugTopic) (l : List (DebugTopic × Cloud K F)) : List (Cloud K F) :=
  (l.filter fun x => decide (x.1 = t)).map (·.2)

/-- The topics on which something is published for each scan. -/
def DebugTopic.OfScan : DebugTopic → Prop
  | .s2m | .s2mAlt => False
  | _ => True

/-- `out` consists of the points of `src` after the motion `T`: positions are moved and normals are turned, if they are finite. -/
def Moved [CommRing K] (T : Iso K) (src out : Cloud K F) : Prop :=
  out.points.length = src.points.length ∧
  ∀ (i : Nat) (p : Point K F), src.points[i]? = some p → ∃ q, out.points[i]? = some q ∧ q.other = p.other ∧
    ∀ x, (∀ j, p.pos j = some (x j)) → (∀ j, q.pos j = some ((T.R *ᵥ x + T.t) j)) ∧
      ∀ n, (∀ j, p.normal j = some (n j)) → ∀ j, q.normal j = some ((T.R *ᵥ n) j)

end Lidar

end Serpent
