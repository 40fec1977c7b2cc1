import Mathlib.Algebra.Order.Group.Defs

/-!
# Specification of correspondences
-/

namespace Serpent

namespace Icp

/-- `search` finds the nearest point of `cloud`, by the squared distance `dsq`, and that distance; nothing is found in an empty cloud
only. -/
def FindsNearest {P D : Type} [LE D] (dsq : P → P → D) (cloud : List P) (search : P → Option (Nat × D)) : Prop :=
  (∀ p j d, search p = some (j, d) → ∃ q, cloud[j]? = some q ∧ d = dsq p q ∧ ∀ q' ∈ cloud, d ≤ dsq p q') ∧
  ∀ p, search p = none → cloud = []

/-- The points `i` of a cloud, moved by `move`, are paired with the nearest point `j` of `other` if it is within the distance `max`:
no other pairs, and no point is left out that has a point within the distance. `maxSq` is the square. -/
structure Paired {P D : Type} [LE D] (dsq : P → P → D) (maxSq : D) (move : P → P) (cloud other : List P) (i j : Nat → Nat)
    (n : Nat) : Prop where
  /-- each pair is of a point and of its nearest point, which is near enough -/
  near : ∀ k < n, ∃ p q, cloud[i k]? = some p ∧ other[j k]? = some q ∧ dsq (move p) q ≤ maxSq ∧
    ∀ q' ∈ other, dsq (move p) q ≤ dsq (move p) q'
  /-- all points with a point that is near enough are there -/
  all : ∀ m p q, cloud[m]? = some p → q ∈ other → dsq (move p) q ≤ maxSq → ∃ k < n, i k = m
  /-- in the order of the cloud, and so once each -/
  order : ∀ k k', k < k' → k' < n → i k < i k'

end Icp

end Serpent
