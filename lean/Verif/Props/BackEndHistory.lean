import Verif.Lemmas.BackEndForget
import Verif.Props.CrashNode
import Verif.Props.Isam
import Verif.Spec.BackEndHistory

/-!
# What the running back end hands to its optimiser (C156)
-/

namespace Serpent

namespace Graph

variable {Val D O : Type}

theorem ireaches_unique {er : EndRead} {api : OptApi Val D O} {o : O} {log : ILog Val D} {s t : RIsam Val D O}
    (h : IReaches er api o log s) (h' : IReaches er api o log t) : s = t := by
  induction h generalizing t with
  | init =>
    generalize hl : ([] : ILog Val D) = l at h'
    cases h' with
    | init => rfl
    | step _ _ => simp at hl
  | @step log s s' op r _ hs ih =>
    generalize hl : log ++ [(op, r)] = l at h'
    cases h' with
    | init => simp at hl
    | step h2 hs2 =>
      obtain ⟨e1, e2⟩ := List.append_inj' hl rfl
      subst e1
      cases e2
      have e := ih h2
      subst e
      rw [hs] at hs2
      cases hs2
      rfl

end Graph

namespace BackEnd

open Graph M

variable {Val D O C I : Type}

/-- **C156.** The graph manager of the running node is in a state that a history of calls leads to: all calls succeeded, the stereo
frames have increasing keys, and the states of all factors were set before the optimiser was called. All theorems on histories
(C01 to C16) apply to it. -/
theorem C156_history {er : EndRead} {api : Api Val D O C I} {cfg : Cfg} {o : O} {s : Sys Val D (O × List (Event Val D))}
    (h : NodeReach er (recorded api) cfg (o, []) s) :
    ∃ log, IReaches er api.opt o log s.be.isam ∧ (∀ e ∈ log, e.2 = .done) ∧ StereoOk (calls log).reverse ∧
      ∀ pre k r post, log = pre ++ (IOp.optimise k, r) :: post → ∀ st, IReaches er api.opt o pre st →
        ∀ e ∈ created (calls pre).reverse, ∀ raw ∈ e.2.vars, ∃ v, st.gm.values.find raw = some v := by
  obtain ⟨log, hl⟩ := hist_reach (api := recorded api) (opt := api.opt) rfl h
  refine ⟨log, hl.reach, hl.done, hl.stereo, fun pre k r post e st hst x hx raw hr => ?_⟩
  obtain ⟨st', h1, h2, -⟩ := hl.seen pre k r post e
  have := ireaches_unique hst h1
  subst this
  obtain ⟨glog, hg⟩ := link_exists hst
  have hok : StereoOk (calls pre).reverse := by
    have : ∀ (a b : List (Op Val D × Resp Val D)), StereoOk (a ++ b) → StereoOk b := by
      intro a b
      induction a with
      | nil => exact id
      | cons y a ih =>
        obtain ⟨op, r⟩ := y
        intro h
        cases op with
        | stereo k l => exact ih h.2.2.2
        | _ => exact ih h
    refine this (calls ((IOp.optimise k, r) :: post)).reverse _ ?_
    rw [← List.reverse_append, ← calls_append, ← e]
    exact hl.stereo
  have hmem : x.2 ∈ allFactors st.gm := by
    classical
    obtain ⟨t, ht, he⟩ := C06_all_factors hg.reaches (hg.stereo hok)
    rw [he]
    refine List.mem_map.2 ⟨x, ?_, rfl⟩
    rw [ht.perm.mem_iff, hg.created]
    exact hx
  exact C155_calls (.reach h) k st.gm h2 x.2 hmem raw hr

/-- **C156.** In every run of the back end, each factor handed to the optimiser is on variables handed over in the same or an earlier
call. -/
theorem C156_well_fed {er : EndRead} {api : Api Val D O C I} {cfg : Cfg} {o : O} {s : Sys Val D (O × List (Event Val D))}
    (h : NodeReach er (recorded api) cfg (o, []) s) : WellFed [] (accepted s) := by
  obtain ⟨log, h1, h2, h3, h4⟩ := C156_history h
  exact wellFed_of_valued h1 (fun k r hm => h2 _ hm) h3 fun pre k r post st e hst x hx _ c j _ _ _ hin =>
    contains_iff.2 (h4 pre k r post e st hst x hx _ hin)

/-- **C156.** No variable is handed over twice, and none is marginalised twice. -/
theorem C156_once {er : EndRead} {api : Api Val D O C I} {cfg : Cfg} {o : O} {s : Sys Val D (O × List (Event Val D))}
    (h : NodeReach er (recorded api) cfg (o, []) s) : (handedVars (accepted s)).Nodup ∧ (margVars (accepted s)).Nodup := by
  obtain ⟨log, h1, -⟩ := C156_history h
  exact ⟨C15_no_variable_twice h1, C16_never_twice h1⟩

/-- **C156.** The factors handed over and those that wait are exactly the factors of the graph, each as often as it was made. -/
theorem C156_factors {er : EndRead} {api : Api Val D O C I} {cfg : Cfg} {o : O} {s : Sys Val D (O × List (Event Val D))}
    (h : NodeReach er (recorded api) cfg (o, []) s) :
    (handedFactors (accepted s) ++ waitingFactors s.be.isam.gm).Perm (allFactors s.be.isam.gm) := by
  classical
  obtain ⟨log, h1, h2, h3, -⟩ := C156_history h
  obtain ⟨glog, hl⟩ := link_exists h1
  have hst := hl.stereo h3
  obtain ⟨-, -, hf⟩ := hl.all fun k r hm => h2 _ hm
  have hw := tag_stableSort (reaches_finv hl.reaches).newFactors (factors_invariant hl.reaches hst).newFactors
  have ha := tag_stableSort (reaches_finv hl.reaches).factors (factors_invariant hl.reaches hst).factors
  have e1 : waitingFactors s.be.isam.gm = (tag s.be.isam.gm.newFactors).map Prod.snd := (tag_snd _).symm
  have e2 : allFactors s.be.isam.gm = (tag s.be.isam.gm.factors).map Prod.snd := (tag_snd _).symm
  rw [e1, e2]
  unfold accepted
  rw [hf]
  exact ((hw.perm.map _).append_left _).trans ((C05_conservation hl.reaches hst).trans (ha.perm.map _).symm)

theorem replay_append (opt : OptApi Val D O) (o : O) (a b : List (Event Val D)) :
    replay opt o (a ++ b) = (replay opt o a).bind fun o' => replay opt o' b := by
  induction a generalizing o with
  | nil => rfl
  | cons e a ih =>
    cases e with
    | update fs vs =>
      simp only [List.cons_append, replay]
      cases opt.update o fs vs with
      | ok o' => exact ih o'
      | throws => rfl
      | ub => rfl
    | marginalize ks =>
      simp only [List.cons_append, replay]
      cases opt.marginalizeLeaves o ks with
      | ok o' => exact ih o'
      | throws => rfl
      | ub => rfl

/-- The record of the optimiser leads to its state. -/
theorem replay_reach {er : EndRead} {opt : OptApi Val D O} {o : O} {log : ILog Val D} {s : RIsam Val D O}
    (h : IReaches er opt o log s) : replay opt o s.opt.2 = .ok s.opt.1 := by
  induction h with
  | init => rfl
  | @step log s s' op r hr hs ih =>
    have one : ∀ {fs vs o'}, opt.update s.opt.1 fs vs = .ok o' → replay opt o (s.opt.2 ++ [.update fs vs]) = .ok o' := by
      intro fs vs o' h3
      rw [replay_append, ih]
      simp [replay, Outcome.bind, h3]
    cases op with
    | call op =>
      simp only [istep] at hs
      split at hs
      · split at hs
        · simp at hs; rw [← hs.2]; exact ih
        · simp at hs
      · simp at hs
    | setMarginalisation b w =>
      simp only [istep, setMarginalisation, modify_run, irespOf] at hs
      cases b <;> simp at hs <;> rw [← hs.2] <;> exact ih
    | marginalise k =>
      obtain ⟨seg, ev, hm⟩ := margRun_of_step hs
      cases hm with
      | refused => exact ih
      | threw => exact ih
      | done _ _ h7 =>
        show replay opt o (_ ++ _) = _
        rw [replay_append, ih]
        simp [replay, Outcome.bind, h7]
    | optimise k =>
      obtain ⟨seg, ev, hm⟩ := optRun_of_step hs
      cases hm with
      | extractThrew => exact ih
      | updateThrew => exact ih
      | feedbackThrew _ _ h3 => exact one h3
      | plain _ _ h3 => exact one h3
      | margThrew _ _ h3 => exact one h3
      | marg _ _ h3 _ _ _ h7 =>
        show replay opt o (_ ++ _) = _
        rw [replay_append, ih]
        simp [replay, Outcome.bind, h3, h7]

/-- **C156.** For every run of the back end there is a sequence of calls that its optimiser accepted and that leads to its state, in
which every factor is on variables handed over before or with it, no variable occurs twice, none is marginalised twice, and the
factors are, together with those that wait, exactly the factors of the graph. -/
theorem C156_node {er : EndRead} {api : Api Val D O C I} {cfg : Cfg} {o : O} {s : Sys Val D O} (h : NodeReach er api cfg o s) :
    ∃ evs, replay api.opt o evs = .ok s.be.isam.opt ∧ WellFed [] evs ∧ (handedVars evs).Nodup ∧ (margVars evs).Nodup ∧
      (handedFactors evs ++ waitingFactors s.be.isam.gm).Perm (allFactors s.be.isam.gm) := by
  obtain ⟨s', h', rfl⟩ := recorded_reach h
  obtain ⟨log, hl, -⟩ := C156_history h'
  exact ⟨accepted s', replay_reach hl, C156_well_fed h', (C156_once h').1, (C156_once h').2, C156_factors h'⟩

/-- The demonstration run with a recording optimiser. -/
def demoRec : Option (Sys Int Int (Unit × List (Event Int Int))) :=
  nodeRun .nodeCount (recorded demoApi) demoCfg demoEvents { be := (initSys demoCfg ((), [])).2 }

theorem demoRec_runs : demoRec.isSome = true := by decide +kernel

theorem demoRec_reach : NodeReach .nodeCount (recorded demoApi) demoCfg ((), []) (demoRec.get demoRec_runs) :=
  nodeReach_run (.init (Prod.ext (by decide +kernel) rfl)) (Option.some_get demoRec_runs).symm

/-- Its optimiser accepts three calls with 3, 4 and 6 factors and 3, 4 and 5 variables; the pressure of the last message and the
bias that goes with it wait. -/
example : (accepted (demoRec.get demoRec_runs)).map (fun e => match e with
      | .update fs vs => (fs.length, vs.length)
      | .marginalize ks => (0, ks.length)) = [(3, 3), (4, 4), (6, 5)] ∧
    (waitingFactors (demoRec.get demoRec_runs).be.isam.gm).map (·.vars) = [[keyOf .X 2, keyOf .P 2], [keyOf .P 1, keyOf .P 2]] := by
  decide +kernel

end BackEnd

end Serpent
