import Mathlib.Algebra.Order.Ring.Int

/-!
# Model of `snowboard/scripts/repair_ouster_timestamps.py`

Simplifications: a bag is the list of its messages in the order in which they are read; `genpy.Time` is an integer (nanoseconds).
Messages that are printed are not modelled.
-/

namespace Serpent

namespace Repair

/-- A message of a bag: topic, time of recording, stamp of its header (`none`: it has no header) and the rest. Read in
repair_ouster_timestamps.py:33-43. -/
structure BagMsg (α : Type) where
  topic : String
  time : Int
  stamp : Option Int
  body : α
deriving DecidableEq

/-- Python's `a in b` for strings: `a` is a part of `b`. In repair_ouster_timestamps.py:35-42. -/
def isIn (a b : String) : Bool := b.toList.tails.any (fun t => a.toList.isPrefixOf t)

/-- `pointcloud_topic`, repair_ouster_timestamps.py:16. -/
def pointcloudTopic : String := "/os_cloud_node/points"

/-- `pointcloud_period`, repair_ouster_timestamps.py:17. -/
def pointcloudPeriod : Int := 100000000

/-- Variables of the script, repair_ouster_timestamps.py:31-32, and the messages written to the new bag. -/
structure State (α : Type) where
  lastTimestamp : Int := 0
  correctedCount : Nat := 0
  written : List (BagMsg α) := []

/-- The body of the `if`, repair_ouster_timestamps.py:35-42: reading the stamp of a message without a header raises an exception that
is caught. Result: the message, and the variables. -/
def correct {α : Type} (m : BagMsg α) (last : Int) (count : Nat) : BagMsg α × Int × Nat :=
  match m.stamp with
  | none => (m, last, count)
  | some t =>
    if t = 0 then ({ m with stamp := some (last + pointcloudPeriod) }, last + pointcloudPeriod, count + 1)
    else (m, t, count)

/-- One round of the loop over the messages, repair_ouster_timestamps.py:33-43. -/
def step {α : Type} (s : State α) (m : BagMsg α) : State α :=
  if isIn m.topic pointcloudTopic then
    let r := correct m s.lastTimestamp s.correctedCount
    { lastTimestamp := r.2.1, correctedCount := r.2.2, written := s.written ++ [r.1] }
  else { s with written := s.written ++ [m] }

/-- The script: the messages of the new bag and the number that is printed. Source: repair_ouster_timestamps.py:31-43. -/
def repair {α : Type} (bag : List (BagMsg α)) : State α := bag.foldl step {}

end Repair

end Serpent
