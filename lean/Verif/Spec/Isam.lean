import Verif.Model.IsamHistory
import Verif.Spec.Graph

/-!
# Specification of the optimising graph manager, in terms of histories and of what the optimiser was handed
-/

namespace Serpent

namespace Graph

variable {Val D O : Type}

/-- The calls of `GraphManager` methods in a history. -/
def calls : ILog Val D → Log Val D
  | [] => []
  | (.call op, r) :: e => (op, r) :: calls e
  | _ :: e => calls e

/-- Variables handed to the optimiser, in order. -/
def handedVars : List (Event Val D) → List Key
  | [] => []
  | .update _ vs :: e => vs.map Prod.fst ++ handedVars e
  | .marginalize _ :: e => handedVars e

/-- Factors handed to the optimiser, in order. -/
def handedFactors : List (Event Val D) → List (Factor D)
  | [] => []
  | .update fs _ :: e => fs ++ handedFactors e
  | .marginalize _ :: e => handedFactors e

/-- Variables given to the optimiser for marginalisation, in order. -/
def margVars : List (Event Val D) → List Key
  | [] => []
  | .update _ _ :: e => margVars e
  | .marginalize ks :: e => ks ++ margVars e

/-- Every factor is on variables handed over in the same or an earlier call (`seen`: handed over so far). -/
def WellFed (seen : List Key) : List (Event Val D) → Prop
  | [] => True
  | .update fs vs :: e =>
    (∀ f ∈ fs, ∀ raw ∈ f.vars, raw ∈ seen ++ vs.map Prod.fst) ∧ WellFed (seen ++ vs.map Prod.fst) e
  | .marginalize _ :: e => WellFed seen e

/-- Only variables handed over in an earlier call are given for marginalisation (`seen`: handed over so far). -/
def MargKnown (seen : List Key) : List (Event Val D) → Prop
  | [] => True
  | .update _ vs :: e => MargKnown (seen ++ vs.map Prod.fst) e
  | .marginalize ks :: e => (∀ raw ∈ ks, raw ∈ seen) ∧ MargKnown seen e

/-- The call gives a value to the state variable `c`, `k`. -/
def sets (c : Fam) (k : Int) : Op Val D → Bool
  | .setPose k' _ => decide (c = .X ∧ k' = k)
  | .setVelocity k' _ => decide (c = .V ∧ k' = k)
  | .setImuBias k' _ => decide (c = .B ∧ k' = k)
  | .setBarometerBias k' _ => decide (c = .P ∧ k' = k)
  | .setNavstate k' _ _ => decide ((c = .X ∨ c = .V) ∧ k' = k)
  | _ => false

/-- The state variable was set by a successful setter call. -/
def HasBeenSet (c : Fam) (k : Int) (log : Log Val D) : Prop := ∃ op, (op, Resp.done) ∈ log ∧ sets c k op = true

/-- Every call of optimise succeeded. -/
def AllOptimised (log : ILog Val D) : Prop := ∀ k r, (IOp.optimise k, r) ∈ log → r = .done

/-- Whenever optimise(`k`) is called, the states of the factors created so far for keys up to `k` have been set. -/
def Disciplined (log : ILog Val D) : Prop :=
  ∀ pre k r post, log = pre ++ (IOp.optimise k, r) :: post →
    ∀ e ∈ created (calls pre).reverse, e.1 ≤ k → ∀ c j, c ≠ Fam.S → 0 ≤ j → j < 2 ^ 56 → keyOf c j ∈ e.2.vars →
      HasBeenSet c j (calls pre)

/-- The variables returned by all extractions of unmarginalised variables, in order (newest call first). -/
def extractedUnmarg : List (Op Val D × Resp Val D) → List Key
  | [] => []
  | (_, .keys ks) :: e => extractedUnmarg e ++ ks
  | _ :: e => extractedUnmarg e

/-- The key of the last optimisation that succeeded (log newest call first); -1 before. -/
def lastOptimised : List (IOp Val D × Resp Val D) → Int
  | [] => -1
  | (.optimise k, .done) :: _ => k
  | _ :: e => lastOptimised e

/-- Every marginalise call succeeded, except those for keys not yet optimised (log newest call first). -/
def MargAccepted : List (IOp Val D × Resp Val D) → Prop
  | [] => True
  | (.marginalise k, r) :: e => (r = .done ∨ lastOptimised e < k) ∧ MargAccepted e
  | _ :: e => MargAccepted e

/-- A history with one window size `w` throughout, no explicit marginalise calls, and optimise keys that do not
decrease. -/
structure Sliding (w : Nat) (log : ILog Val D) : Prop where
  window : ∀ b w' r, (IOp.setMarginalisation b w', r) ∈ log → b = true ∧ w' = w
  noExplicit : ∀ k r, (IOp.marginalise k, r) ∉ log
  increasing : log.Pairwise (fun a b => ∀ k k', a.1 = IOp.optimise k → b.1 = IOp.optimise k' → k ≤ k')

end Graph

end Serpent
