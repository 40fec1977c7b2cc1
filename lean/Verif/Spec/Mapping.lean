import Mathlib.Order.Defs.LinearOrder

/-!
# Independent notions for the mapping node

Nothing of the model is used here.
-/

namespace Serpent

/-- The pose listed last for a stamp. -/
def lastFor {P : Type} (poses : List (Int × P)) (t : Int) : Option P := ((poses.filter (fun e => e.1 = t)).getLast?).map (·.2)

/-- `found` is a correct answer to a search for the `k` elements of `l` with the smallest distance `d`: `k` different places
of `l`, nearest first, and nothing left out is nearer. -/
structure IsKnn {V D : Type} [LE D] (d : V → D) (l : List V) (k : Nat) (found : List Nat) : Prop where
  length : found.length = k
  nodup : found.Nodup
  valid : ∀ i ∈ found, i < l.length
  sorted : found.Pairwise (fun i j => ∀ a b, l[i]? = some a → l[j]? = some b → d a ≤ d b)
  nearest : ∀ i ∈ found, ∀ j, j ∉ found → ∀ a b, l[i]? = some a → l[j]? = some b → d a ≤ d b

/-- `chosen` are the `min n (number of members)` members with the smallest distance, nearest first. -/
structure NearestMembers {α D : Type} [LE D] (members : List α) (d : α → D) (n : Nat) (chosen : List α) : Prop where
  length : chosen.length = min n members.length
  nodup : chosen.Nodup
  member : ∀ t ∈ chosen, t ∈ members
  sorted : chosen.Pairwise (fun t u => d t ≤ d u)
  nearest : ∀ t ∈ chosen, ∀ u ∈ members, u ∉ chosen → d t ≤ d u

/-- `chosen` are the `n` latest members not later than `t` (all of them if there are fewer), latest first. -/
structure LatestMembers {α : Type} (members : List α) (time : α → Int) (t : Int) (n : Nat) (chosen : List α) : Prop where
  length : chosen.length = min n (members.filter (fun m => time m ≤ t)).length
  member : ∀ u ∈ chosen, u ∈ members ∧ time u ≤ t
  sorted : chosen.Pairwise (fun u v => time v < time u)
  latest : ∀ u ∈ chosen, ∀ v ∈ members, time v ≤ t → v ∉ chosen → time v < time u

end Serpent
