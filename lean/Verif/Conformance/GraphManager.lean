import Verif.Model.GraphManager

/-!
# The unit tests of the graph manager (serpent/test/graph_manager.cpp), replayed on the model

Nothing here is a claim about all inputs. Values and measurements are numbers (the tests use arbitrary poses, velocities and
biases). The tests read ranges that end with the last value, which works with the standard library that the project is built
with (`EndRead.nodeCount`). The tests of the optimiser's covariances are the theorems `C39_marginal` and `C39_chain`.
-/

namespace Serpent

namespace Conformance

open Graph

/-- Values and measurements of the tests. -/
abbrev G := GM Nat Nat

/-- `for i = 0 .. n - 1`. -/
def times (n : Nat) (f : Nat → M G Unit) : M G Unit := (List.range n).forM f

/-- The state after a program that must not throw. -/
def after (m : M G Unit) : Option G :=
  match m {} with
  | (.ok _, s) => some s
  | _ => none

/-- A value that must be there. -/
def value {α : Type} : Outcome α → Option α
  | .ok a => some a
  | _ => none

/-- Keys and values of a range. -/
def range (s : Option G) (first last : Int) : Option (List (Nat × Nat)) :=
  s.bind fun s => value (valuesRange .nodeCount s first last)

/-- The key of a variable. -/
def keyOf (c : Fam) (i : Nat) : Nat := c.chr * 2 ^ 56 + i

/-- The keys of a set of factors, each once. -/
def keysOf (fs : List (Factor Nat)) : List Nat := (fs.flatMap (·.vars)).eraseDups

/-! ### Values -/

/-- graph_manager.cpp:20-35 (biases), 79-94 (poses), 117-132 (velocities). -/
def valuesTest (c : Fam) (setter : Int → Nat → M G Unit) (getter : G → Int → Outcome Nat) : Bool :=
  let s := after (times 5 fun i => setter i (100 + i))
  (range s 0 4 == some ((List.range 5).map fun i => (keyOf c i, 100 + i))) &&
  ((List.range 5).all fun i => (s.bind fun s => value (getter s i)) == some (100 + i))

example : valuesTest .B setImuBias imuBias = true := by decide +kernel
example : valuesTest .X setPose pose = true := by decide +kernel
example : valuesTest .V setVelocity velocity = true := by decide +kernel

/-- Set the value of a named key, then increment the key: the loops of graph_manager.cpp:42-45, 101-104 and 139-142. -/
def setNamed (name : String) (setter : Int → Nat → M G Unit) : M G Unit := do
  let s ← M.get
  let k ← M.lift (key s name 0)
  setter k (100 + k.toNat)
  increment name

/-- graph_manager.cpp:37-56 (biases), 96-115 (poses), 134-153 (velocities): with named keys. -/
def namedTest (c : Fam) (setter : Int → Nat → M G Unit) (getter : G → Int → Outcome Nat) : Bool :=
  let s := after do
    setNamedKey "value" 0 0
    setNamedKey "check" 0 0
    times 5 fun _ => setNamed "value" setter
  (range s 0 4 == some ((List.range 5).map fun i => (keyOf c i, 100 + i))) &&
  ((s.bind fun s => value (key s "value" 0)) == some 5) &&
  ((List.range 5).all fun n =>
    let s' := s.bind fun s =>
      match times n (fun _ => increment "check") s with
      | (.ok _, s') => some s'
      | _ => none
    (s'.bind fun s => value (key s "check" 0)) == some (n : Int) &&
    (s'.bind fun s => value (key s "check" 0 >>= fun k => getter s k)) == some (100 + n))

example : namedTest .B setImuBias imuBias = true := by decide +kernel
example : namedTest .X setPose pose = true := by decide +kernel
example : namedTest .V setVelocity velocity = true := by decide +kernel

/-- graph_manager.cpp:58-77 (navigation states). -/
def navstateTest : Bool :=
  let s := after (times 5 fun i => setNavstate i (100 + i) (200 + i))
  ((range s 0 4).map (·.length) == some 10) &&
  ((List.range 5).all fun i =>
    (s.bind fun s => value (navstate s i)) == some (100 + i, 200 + i) &&
    ((range s 0 4).map fun v => v.contains (keyOf .X i, 100 + i) && v.contains (keyOf .V i, 200 + i)) == some true)

example : navstateTest = true := by decide +kernel

/-- graph_manager.cpp:155-164 (time stamps). -/
def timestampTest : Bool :=
  let s := after (times 5 fun i => setTimestamp i (1000 + i))
  (List.range 5).all fun i => (s.bind fun s => value (timestamp s i)) == some (1000 + (i : Int))

example : timestampTest = true := by decide +kernel

/-! ### Factors -/

/-- Number of factors and of variables of a range. -/
def counts (s : Option G) (first last : Int) : Option (Nat × Nat) :=
  s.map fun s => ((factorsRange s first last).length, (keysOf (factorsRange s first last)).length)

/-- graph_manager.cpp:181-199 (one factor of IMU measurements: six variables). -/
example : counts (after (createFactor .combinedImu 1 7)) 0 1 = some (1, 6) := by decide +kernel

/-- graph_manager.cpp:201-207 (one factor between two poses). -/
example : counts (after (createFactor .betweenPose 1 7)) 0 1 = some (1, 2) := by decide +kernel

/-- graph_manager.cpp:209-218 (a chain of five motions: six poses). -/
example : counts (after (times 5 fun i => createFactor .betweenPose (i + 1) i)) 0 5 = some (5, 6) := by decide +kernel

/-- graph_manager.cpp:220-226 (prior of the bias). -/
example : counts (after (createFactor .priorImuBias 0 7)) 0 0 = some (1, 1) := by decide +kernel

/-- graph_manager.cpp:228-234 (prior of the pose). -/
example : counts (after (createFactor .priorPose 0 7)) 0 0 = some (1, 1) := by decide +kernel

/-- graph_manager.cpp:236-242 (prior of the velocity). -/
example : counts (after (createFactor .priorVelocity 0 7)) 0 0 = some (1, 1) := by decide +kernel

/-- The graph of graph_manager.cpp:244-276: values and priors at 0, values at 1 and the factor of IMU measurements. -/
def imuGraph : M G Unit := do
  setTimestamp 0 0
  setImuBias 0 1
  setPose 0 2
  setVelocity 0 3
  createFactor .priorImuBias 0 1
  createFactor .priorPose 0 2
  createFactor .priorVelocity 0 3
  setTimestamp 1 1
  setImuBias 1 1
  setNavstate 1 4 5
  createFactor .combinedImu 1 6

/-- graph_manager.cpp:278-284: six values, four factors. -/
example : (range (after imuGraph) 0 1).map (·.length) = some 6 ∧ (counts (after imuGraph) 0 1).map (·.1) = some 4 := by
  decide +kernel

/-- The values of graph_manager.cpp:361-371, in the order of their keys. -/
def newValues : List (Nat × Nat) :=
  (List.range 4).map (fun i => (keyOf .B i, 10 + i)) ++ (List.range 4).map (fun i => (keyOf .V i, 30 + i)) ++
    (List.range 4).map (fun i => (keyOf .X i, 20 + i))

/-- The graph of graph_manager.cpp:361-379, then `update_from_values`. -/
def updated : M G Unit := do
  times 4 fun i => do
    setImuBias i (15 + i)
    setPose i (25 + i)
    setVelocity i (35 + i)
  setImuBias 4 14
  setPose 4 24
  setVelocity 4 34
  updateFromValues newValues

/-- graph_manager.cpp:359-387. -/
example : ((List.range 5).all fun i =>
    ((after updated).bind fun s => value (imuBias s i)) == some (10 + i) &&
    ((after updated).bind fun s => value (pose s i)) == some (20 + i) &&
    ((after updated).bind fun s => value (velocity s i)) == some (30 + i)) = true := by decide +kernel

end Conformance

end Serpent
