import Verif.Props.Crash
import Verif.Props.BackEndSched
import Verif.Lemmas.BackEndValued

/-!
# Values of the variables at the calls of the optimiser (C155), and its exceptions in the node (C154)
-/

namespace Serpent

namespace BackEnd

open Graph M

variable {Val D O C I : Type}

theorem mem_factorsAt {g : GM Val D} (hs : g.factors.Sorted) {f : Factor D} (h : f ∈ allFactors g) : ∃ k, f ∈ factorsAt g k := by
  obtain ⟨e, he, hm⟩ := List.mem_flatMap.1 h
  refine ⟨e.1, ?_⟩
  unfold factorsAt
  rw [OMap.find_of_mem hs (show (e.1, e.2) ∈ g.factors from he)]
  exact hm

theorem FV.all {g : GM Val D} (h : FV No g) {f : Factor D} (hf : f ∈ allFactors g) {raw : Key} (hr : raw ∈ f.vars) :
    g.values.contains raw = true := by
  obtain ⟨k, hk⟩ := mem_factorsAt h.sorted hf
  exact (h.vals k f hk raw hr).resolve_right id

/-- **C155.** Whenever the back end calls the optimiser, in every interleaving of its callbacks and also in a call that throws, all
variables of all factors of the graph have values: also those of keys that are not optimised yet, and of factors whose callbacks
waited. -/
theorem C155_calls {er : EndRead} {api : Api Val D O C I} {cfg : Cfg} {o : O} {s : Sys Val D O} (h : NodeSeen er api cfg o s)
    (k : Int) (g : GM Val D) (hc : (k, g) ∈ s.be.calls) :
    ∀ f ∈ allFactors g, ∀ raw ∈ f.vars, ∃ v, g.values.find raw = some v := fun _ hf _ hr =>
  contains_iff.1 ((valued_seen h (k, g) hc).all hf hr)

/-- **C155.** The same holds whenever no callback is running or all running ones wait. -/
theorem C155_between {er : EndRead} {api : Api Val D O C I} {cfg : Cfg} {o : O} {s : Sys Val D O} (h : NodeReach er api cfg o s) :
    ∀ f ∈ allFactors s.be.isam.gm, ∀ raw ∈ f.vars, ∃ v, s.be.isam.gm.values.find raw = some v := fun _ hf _ hr => by
  obtain ⟨ks, hk⟩ := valued_reach h
  exact contains_iff.1 (hk.1.fv.all hf hr)

/-- **C155.** A stereo factor is between a pose and a landmark, and is only made when the calibration and the mounting of the camera
are known. -/
theorem C155_stereo {er : EndRead} {api : Api Val D O C I} {cfg : Cfg} {o : O} {s : Sys Val D O} (h : NodeReach er api cfg o s) :
    ∀ f ∈ allFactors s.be.isam.gm, f.kind = .stereo → (∃ c, s.be.isam.gm.calib = some c) ∧ s.be.isam.gm.extrinsicSet = true ∧
      ∃ j id, 0 ≤ j ∧ 0 ≤ id ∧ f.vars = [keyOf .X j, keyOf .S id] := fun f hf hs => by
  obtain ⟨ks, hk⟩ := valued_reach h
  obtain ⟨k, hm⟩ := mem_factorsAt hk.1.fv.sorted hf
  obtain ⟨h1, h2, j, id, x, l, hx, hl, hv⟩ := hk.1.fv.stereo k f hm hs
  obtain ⟨h3, -, rfl⟩ := sym_ok_iff.1 hx
  obtain ⟨h4, -, rfl⟩ := sym_ok_iff.1 hl
  exact ⟨Option.isSome_iff_exists.1 h1, h2, j, id, h3, h4, hv⟩

/-- The demonstration run calls the optimiser three times, with factors of all kinds. -/
example : NodeSeen .nodeCount demoApi demoCfg () (demoFinal.get demoFinal_runs) ∧
    (demoFinal.get demoFinal_runs).be.calls.map (fun c => (c.1, (allFactors c.2).length)) = [(0, 3), (1, 7), (2, 13)] :=
  ⟨.reach demo_reach, by decide +kernel⟩

/-- **C154** (partial: only this exception keeps its kind). In every run of the back end: if a call of the optimiser reports a
variable without enough constraints, that exception leaves the callback, whatever is printed before. `i` is the graph manager
when the optimiser is called; printing looks at what the failed call leaves. Keys are of type `int`. -/
theorem C154_node_partial {er : EndRead} {api : Api Val D O C I} {cfg : Cfg} {o : O} {s : Sys Val D O} (h : NodeSeen er api cfg o s)
    (k : Int) (i : Isam Val D O) (hc : (k, i.gm) ∈ s.be.calls) (hint : ∀ j v, pose i.gm j = .ok v → j < 2 ^ 31)
    (print verbose : Bool) (near : Key) (hn : ∃ v, i.gm.values.find near = some v) :
    rethrown print verbose (optimise er api.opt k i).2.gm (.indeterminate near) = .ok (.indeterminate near) := by
  have hfv := valued_seen h (k, i.gm) hc
  have hg := keeps_grow_optimise i.gm er api.opt k i (Grow.refl hfv.vinv)
  have hfv' := hg.fv hfv
  refine rethrown_kept (fun f hf raw hr => hfv'.all hf hr) (fun f hf hs => ?_) print verbose near
    (contains_iff.1 (hg.dom near (contains_iff.2 hn)))
  obtain ⟨k', hm⟩ := mem_factorsAt hfv'.sorted hf
  obtain ⟨h1, h2, j, id, x, l, hx, hl, hv⟩ := hfv'.stereo k' f hm hs
  obtain ⟨h3, h4, hx'⟩ := sym_ok_iff.1 hx
  obtain ⟨-, -, hl'⟩ := sym_ok_iff.1 hl
  refine ⟨h2, h1, j, id, h3, ?_, by rw [hv, hx', hl']; rfl⟩
  have hmem : f ∈ allFactors i.gm := by
    unfold allFactors at hf ⊢
    rw [hg.facs] at hf
    exact hf
  obtain ⟨v, hval⟩ := contains_iff.1 (hfv.all hmem (raw := x) (by rw [hv]; exact List.mem_cons_self))
  refine hint j v ?_
  unfold pose getVal
  rw [hx, Outcome.bind_ok, hval]

/-- The hypotheses are met at the last call of the demonstration run, whose graph has stereo factors. -/
example : ∃ c ∈ (demoFinal.get demoFinal_runs).be.calls, c.1 = 2 ∧ ((allFactors c.2).filter fun f => f.kind == .stereo).length = 3 ∧
    (∃ v, c.2.values.find (keyOf .X 1) = some v) ∧ ∀ j v, pose c.2 j = .ok v → j < 2 ^ 31 := by
  refine ⟨_, List.getLast_mem (l := (demoFinal.get demoFinal_runs).be.calls) (by decide +kernel), by decide +kernel, by decide +kernel,
    Option.isSome_iff_exists.1 (by decide +kernel), fun j v h => ?_⟩
  have hb : ∀ e ∈ ((demoFinal.get demoFinal_runs).be.calls.getLast (by decide +kernel)).2.values, e.1 < keyOf .X 0 + 2 ^ 31 := by
    decide +kernel
  unfold pose getVal at h
  cases hs : sym .X j with
  | ok x =>
    rw [hs, Outcome.bind_ok] at h
    obtain ⟨h0, -, rfl⟩ := sym_ok_iff.1 hs
    split at h
    · rename_i w hw
      have := hb _ (OMap.mem_of_find hw)
      unfold keyOf at this
      omega
    · cases h
  | throws => rw [hs] at h; cases h
  | ub => rw [hs] at h; cases h

end BackEnd

end Serpent
