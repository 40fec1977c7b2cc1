import Verif.Model.GraphManager

/-!
# Histories of calls on a `GraphManager`

A history is a list of API calls. Running it produces the log of the calls with what each returned. An exception does
not end the history (the caller may catch it and go on; the half-updated object is what the next call sees). Undefined
behaviour ends it: no claim is made about what follows.
-/

namespace Serpent

namespace Graph

variable {Val D : Type}

/-- State-changing calls on a `GraphManager` (graph_manager.hpp). The string overloads resolve the name with `key` and
forward to these. -/
inductive Op (Val D : Type) where
  | setNamedKey (name : String) (k : Int) (p : Nat)
  | increment (name : String)
  | setPose (k : Int) (v : Val)
  | setVelocity (k : Int) (v : Val)
  | setImuBias (k : Int) (v : Val)
  | setBarometerBias (k : Int) (v : Val)
  | setNavstate (k : Int) (pose vel : Val)
  | setTimestamp (k : Int) (t : Int)
  | create (kind : PlainKind) (k : Int) (d : D)
  | stereo (k : Int) (feats : OMap Int D)
  | setExtrinsic
  | setCalibration (bp : Val → D → Val)
  | updateFromValues (vs : OMap Key Val)
  | extractFactors (m : Int)
  | extractValues (m : Int)
  | extractKeys (m : Int)

/-- What a call returned. Of the methods of graph_manager.cpp. -/
inductive Resp (Val D : Type) where
  | done
  | factors (fs : List (Factor D))
  | values (vs : OMap Key Val)
  | keys (ks : List Key)
  | threw

/-- Wrap a returned value. No counterpart in /repo. -/
def respOf {α : Type} (f : α → Resp Val D) (r : Outcome α × GM Val D) : Option (Resp Val D × GM Val D) :=
  match r with
  | (.ok a, s) => some (f a, s)
  | (.throws, s) => some (.threw, s)
  | (.ub, _) => none

/-- One call (`none`: undefined behaviour). Calls of the methods of graph_manager.cpp (each cited in Model/GraphManager.lean).
-/
def step (er : EndRead) (op : Op Val D) (s : GM Val D) : Option (Resp Val D × GM Val D) :=
  match op with
  | .setNamedKey n k p => respOf (fun _ => .done) (setNamedKey n k p s)
  | .increment n => respOf (fun _ => .done) (increment n s)
  | .setPose k v => respOf (fun _ => .done) (setPose k v s)
  | .setVelocity k v => respOf (fun _ => .done) (setVelocity k v s)
  | .setImuBias k v => respOf (fun _ => .done) (setImuBias k v s)
  | .setBarometerBias k v => respOf (fun _ => .done) (setBarometerBias k v s)
  | .setNavstate k p v => respOf (fun _ => .done) (setNavstate k p v s)
  | .setTimestamp k t => respOf (fun _ => .done) (setTimestamp k t s)
  | .create kind k d => respOf (fun _ => .done) (createFactor kind k d s)
  | .stereo k fs => respOf (fun _ => .done) (createStereo k fs s)
  | .setExtrinsic => respOf (fun _ => .done) (setExtrinsic s)
  | .setCalibration bp => respOf (fun _ => .done) (setCalibration bp s)
  | .updateFromValues vs => respOf (fun _ => .done) (updateFromValues vs s)
  | .extractFactors m => respOf .factors (extractNewFactors m s)
  | .extractValues m => respOf .values (extractNewValues er m s)
  | .extractKeys m => respOf .keys (extractUnmarginalisedKeys m s)

/-- The log of a history, oldest call first. No counterpart in /repo. -/
abbrev Log (Val D : Type) := List (Op Val D × Resp Val D)

/-- `Reaches er log s`: the calls of `log`, made on a new manager, return what `log` says and leave it in state `s`. No
counterpart in /repo. -/
inductive Reaches (er : EndRead) : Log Val D → GM Val D → Prop where
  | init : Reaches er [] {}
  | step {log : Log Val D} {s s' : GM Val D} {op : Op Val D} {r : Resp Val D} :
      Reaches er log s → step er op s = some (r, s') → Reaches er (log ++ [(op, r)]) s'

/-- Executable version: run a list of calls. No counterpart in /repo. -/
def run (er : EndRead) : List (Op Val D) → Log Val D × GM Val D → Option (Log Val D × GM Val D)
  | [], st => some st
  | op :: ops, (log, s) =>
    match step er op s with
    | none => none
    | some (r, s') => run er ops (log ++ [(op, r)], s')

theorem reaches_of_run {er : EndRead} {ops : List (Op Val D)} {log log' : Log Val D} {s s' : GM Val D}
    (h : Reaches er log s) (hr : run er ops (log, s) = some (log', s')) : Reaches er log' s' := by
  induction ops generalizing log s with
  | nil => simp [run] at hr; obtain ⟨rfl, rfl⟩ := hr; exact h
  | cons op ops ih =>
    simp only [run] at hr
    split at hr
    · simp at hr
    · rename_i r s1 hs
      exact ih (h.step hs) hr

/-- A history that runs through is a history in the sense of `Reaches`. -/
theorem reaches_get {er : EndRead} {ops : List (Op Val D)} (h : (run er ops ([], {})).isSome = true) :
    Reaches er ((run er ops ([], {})).get h).1 ((run er ops ([], {})).get h).2 :=
  reaches_of_run .init (ops := ops) (by simp)

end Graph

end Serpent
