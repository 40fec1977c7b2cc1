import Verif.Spec.Graph

/-!
# What an extraction of values has to insert (C08)
-/

namespace Serpent

namespace Graph

variable {Val D : Type}

/-- The starts of landmark tracks that no extraction has covered yet, oldest first: pairs of the key and the landmark id. The list of
calls is read newest first. -/
def startsWaiting : List (Op Val D × Resp Val D) → List (Int × Int)
  | [] => []
  | (.stereo k l, .done) :: e => startsWaiting e ++ (frameIds l (frames e)).map (fun id => (k, id))
  | (.extractValues m, .values _) :: e => (startsWaiting e).filter (fun x => decide (m < x.1))
  | _ :: e => startsWaiting e

/-- The landmarks an extraction up to key `m` has to insert: one entry for each start of a track that is waiting at a key up to `m`. -/
def landmarksDue (log : List (Op Val D × Resp Val D)) (m : Int) : List Int :=
  ((startsWaiting log).filter (fun x => decide (x.1 ≤ m))).map Prod.snd

end Graph

end Serpent
