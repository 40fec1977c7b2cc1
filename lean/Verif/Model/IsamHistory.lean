import Verif.Model.GraphHistory

/-!
# Histories of calls on an `ISAM2GraphManager`

The optimiser (`gtsam::ISAM2`) is an arbitrary `OptApi`. `recording api` is the same optimiser with a record of the
calls it accepted, so that statements can refer to what was handed over.
-/

namespace Serpent

namespace Graph

variable {Val D O : Type}

/-- A call accepted by the optimiser. Of the calls in graph_manager.cpp:531-632. -/
inductive Event (Val D : Type) where
  | update (fs : List (Factor D)) (vs : OMap Key Val)
  | marginalize (ks : List Key)

/-- The optimiser `api`, keeping a record of the accepted calls (oldest first). No counterpart in /repo. -/
def recording (api : OptApi Val D O) : OptApi Val D (O × List (Event Val D)) where
  update o fs vs :=
    match api.update o.1 fs vs with
    | .ok o' => .ok (o', o.2 ++ [.update fs vs])
    | .throws => .throws
    | .ub => .ub
  estimate o := api.estimate o.1
  marginalizeLeaves o ks :=
    match api.marginalizeLeaves o.1 ks with
    | .ok o' => .ok (o', o.2 ++ [.marginalize ks])
    | .throws => .throws
    | .ub => .ub

/-- Calls on an `ISAM2GraphManager` (graph_manager.hpp:467-530): the public ones of `GraphManager` and its own. -/
inductive IOp (Val D : Type) where
  | call (op : Op Val D)
  | optimise (k : Int)
  | marginalise (k : Int)
  | setMarginalisation (enabled : Bool) (window : Nat)

/-- The public methods of `GraphManager`; `extract_*` are protected (graph_manager.hpp:371-407). -/
def Op.isPublic : Op Val D → Bool
  | .extractFactors _ => false
  | .extractValues _ => false
  | .extractKeys _ => false
  | _ => true

/-- Manager with a recording optimiser. No counterpart in /repo. -/
abbrev RIsam (Val D O : Type) := Isam Val D (O × List (Event Val D))

/-- Wrap the result of a method without return value. No counterpart in /repo. -/
def irespOf (r : Outcome Unit × RIsam Val D O) : Option (Resp Val D × RIsam Val D O) :=
  match r with
  | (.ok _, s) => some (.done, s)
  | (.throws, s) => some (.threw, s)
  | (.ub, _) => none

/-- One call (`none`: undefined behaviour, or a protected method). Calls of the methods of graph_manager.cpp:531-632 and of
those of the base class. -/
def istep (er : EndRead) (api : OptApi Val D O) (op : IOp Val D) (s : RIsam Val D O) :
    Option (Resp Val D × RIsam Val D O) :=
  match op with
  | .call op =>
    if op.isPublic then
      match step er op s.gm with
      | some (r, g) => some (r, { s with gm := g })
      | none => none
    else none
  | .optimise k => irespOf (optimise er (recording api) k s)
  | .marginalise k => irespOf (marginalise (recording api) k s)
  | .setMarginalisation b w => irespOf (setMarginalisation b w s)

/-- Log of a history, oldest call first. No counterpart in /repo. -/
abbrev ILog (Val D : Type) := List (IOp Val D × Resp Val D)

/-- The calls of `log` on a new manager with optimiser `api` (initially in state `o`) return what `log` says and leave it in
state `s`. No counterpart in /repo. -/
inductive IReaches (er : EndRead) (api : OptApi Val D O) (o : O) : ILog Val D → RIsam Val D O → Prop where
  | init : IReaches er api o [] { opt := (o, []) }
  | step {log : ILog Val D} {s s' : RIsam Val D O} {op : IOp Val D} {r : Resp Val D} :
      IReaches er api o log s → istep er api op s = some (r, s') → IReaches er api o (log ++ [(op, r)]) s'

/-- Executable version. No counterpart in /repo. -/
def irun (er : EndRead) (api : OptApi Val D O) : List (IOp Val D) → ILog Val D × RIsam Val D O →
    Option (ILog Val D × RIsam Val D O)
  | [], st => some st
  | op :: ops, (log, s) =>
    match istep er api op s with
    | none => none
    | some (r, s') => irun er api ops (log ++ [(op, r)], s')

theorem ireaches_of_run {er : EndRead} {api : OptApi Val D O} {o : O} {ops : List (IOp Val D)} {log log' : ILog Val D}
    {s s' : RIsam Val D O} (h : IReaches er api o log s) (hr : irun er api ops (log, s) = some (log', s')) :
    IReaches er api o log' s' := by
  induction ops generalizing log s with
  | nil => simp [irun] at hr; obtain ⟨rfl, rfl⟩ := hr; exact h
  | cons op ops ih =>
    simp only [irun] at hr
    split at hr
    · simp at hr
    · rename_i r s1 hs
      exact ih (h.step hs) hr

theorem ireaches_get {er : EndRead} {api : OptApi Val D O} {o : O} {ops : List (IOp Val D)}
    (h : (irun er api ops ([], { opt := (o, []) })).isSome = true) :
    IReaches er api o ((irun er api ops ([], { opt := (o, []) })).get h).1
      ((irun er api ops ([], { opt := (o, []) })).get h).2 :=
  ireaches_of_run .init (ops := ops) (by simp)

end Graph

end Serpent
