import Verif.Props.BackEndHistory

/-!
# Only variables that the optimiser has are marginalised (C157)
-/

namespace Serpent

namespace Graph

open M

variable {Val D O : Type}

theorem margKnown_append (seen : List Key) (a b : List (Event Val D)) :
    MargKnown seen (a ++ b) ↔ MargKnown seen a ∧ MargKnown (seen ++ handedVars a) b := by
  induction a generalizing seen with
  | nil => simp [MargKnown, handedVars]
  | cons x a ih =>
    cases x with
    | update fs vs => simp only [List.cons_append, MargKnown, handedVars, ih, ← List.append_assoc]
    | marginalize ks => simp only [List.cons_append, MargKnown, handedVars, ih, and_assoc]

/-- **C157.** For every history of calls: if all calls of `optimise` succeeded, `marginalise` is not called explicitly, and no call of
`optimise(k)` comes after a stereo frame for a key above `k`, then only variables that the optimiser was handed before are given to it
for marginalisation. -/
theorem C157_histories {er : EndRead} {api : OptApi Val D O} {o : O} {log : ILog Val D} {s : RIsam Val D O}
    (h : IReaches er api o log s) (hest : ∀ o, (api.estimate o).Sorted) (ha : AllOptimised log)
    (hok : StereoOk (calls log).reverse) (hno : ∀ k r, (IOp.marginalise k, r) ∉ log)
    (hfr : ∀ pre k r post, log = pre ++ (IOp.optimise k, r) :: post → ∀ f ∈ frames (calls pre).reverse, f.1 ≤ k) :
    MargKnown [] s.opt.2 := by
  induction h with
  | init => trivial
  | @step log s s' op r hr hs ih =>
    have hok' : StereoOk (calls log).reverse := by
      rw [calls_append, List.reverse_append] at hok
      cases op with
      | call op =>
        simp only [calls, List.reverse_singleton, List.singleton_append] at hok
        cases op <;> simp only [StereoOk] at hok <;> first | exact hok | exact hok.2.2.2
      | _ => simpa [calls] using hok
    have ih := ih (allOptimised_left ha) hok' (fun k r hm => hno k r (List.mem_append_left _ hm)) fun pre k r' post e =>
      hfr pre k r' (post ++ [(op, r)]) (by rw [e]; simp)
    obtain ⟨glog, hl⟩ := link_exists hr
    have same : s'.opt.2 = s.opt.2 → MargKnown [] s'.opt.2 := fun e => by rw [e]; exact ih
    cases op with
    | call op =>
      apply same
      simp only [istep] at hs
      split at hs
      · split at hs
        · simp at hs; rw [← hs.2]
        · simp at hs
      · simp at hs
    | setMarginalisation b w =>
      apply same
      simp only [istep, setMarginalisation, modify_run, irespOf] at hs
      cases b <;> simp at hs <;> rw [← hs.2]
    | marginalise k => exact absurd (List.mem_append_right _ List.mem_cons_self) (hno k r)
    | optimise k =>
      obtain ⟨seg, ev, hm⟩ := optRun_of_step hs
      have hdone := allOptimised_last ha
      subst hdone
      cases hm with
      | @plain fs g1 vs g2 o' g3 h1 h2 h3 h4 h5 =>
        rw [margKnown_append]
        exact ⟨ih, trivial⟩
      | @marg fs g1 vs g2 o1 g3 ks g4 o2 h1 h2 h3 h4 h5 h6 h7 =>
        rw [margKnown_append]
        refine ⟨ih, ?_, trivial⟩
        intro raw hraw
        obtain ⟨hx, hv, _⟩ := hl.all (allOptimised_left ha)
        have hst := hl.stereo hok'
        obtain ⟨-, c, j, h0, hj, rfl, hle, hin⟩ := (marg_keys (((hl.reaches.step h1).step h2).step h4) h6 raw).1 hraw
        rw [feedback_contains ((hl.reaches.step h1).step h2) (hest o1) h4] at hin
        have e2 : g2.values = g1.values := by
          obtain ⟨n, l, e⟩ := extractNewValues_frame er k g1
          rw [step_state h2]; simp only [stateAfter]; rw [e]
        rw [e2] at hin
        have hlog : (glog ++ [(Op.extractFactors k, Resp.factors fs)]).reverse =
            (Op.extractFactors k, Resp.factors fs) :: glog.reverse := by simp
        have hst1 : StereoOk (glog ++ [(Op.extractFactors k, Resp.factors fs)]).reverse := by rw [hlog]; exact hst
        have hx1 : ExtractOk (glog ++ [(Op.extractFactors k, Resp.factors fs)]).reverse := by
          rw [hlog]
          intro m r hm
          rcases List.mem_cons.1 hm with e | hm
          · simp at e
          · exact hx m r hm
        obtain ⟨hstate, hland, _⟩ := C08_extraction (hl.reaches.step h1) hst1 hx1 h2
        have hek : extractedKeys (glog ++ [(Op.extractFactors k, Resp.factors fs)]).reverse = handedVars s.opt.2 := by
          rw [hlog, hv]; rfl
        rw [hek] at hstate hland
        by_cases hex : keyOf c j ∈ handedVars s.opt.2
        · simp [hex]
        · have hmem : keyOf c j ∈ vs.map Prod.fst := by
            obtain ⟨v, hv⟩ := contains_iff.1 hin
            by_cases hc : c = Fam.S
            · subst hc
              have htr := (has_landmark_invariant (hl.reaches.step h1) hst1 (keyOf_eq h0 hj)).1 hin
              obtain ⟨k', hk'⟩ := (tracked_iff_tracks (stereoOk_frames hst1)).1 htr
              have hb : k' < k + 1 := tracks_lt (k := k + 1) (fun f hf => by
                have hf' : f ∈ frames (calls log).reverse := by
                  rw [← hl.frames]
                  rw [hlog] at hf
                  exact hf
                have := hfr log k _ [] rfl f hf'
                omega) _ hk'
              have := (hland j v h0 hj).2 ⟨⟨k', by omega, hk'⟩, hex, (getVal_iff h0 hj).2 hv⟩
              exact List.mem_map.2 ⟨_, OMap.mem_of_find this, rfl⟩
            · have := (hstate c j v hc h0 hj).2 ⟨by omega, hex, (getVal_iff h0 hj).2 hv⟩
              exact List.mem_map.2 ⟨_, OMap.mem_of_find this, rfl⟩
          simp only [List.nil_append]
          exact List.mem_append_right _ hmem

/-- The stereo frames are not ahead, as a check. -/
def notAheadB (log : ILog Val D) : Bool :=
  (List.range log.length).all fun n => match log[n]? with
    | some (.optimise k, _) => (frames (calls (log.take n)).reverse).all fun f => decide (f.1 ≤ k)
    | _ => true

theorem notAhead_of_b {log : ILog Val D} (h : notAheadB log = true) :
    ∀ pre k r post, log = pre ++ (IOp.optimise k, r) :: post → ∀ f ∈ frames (calls pre).reverse, f.1 ≤ k := by
  intro pre k r post e f hf
  have := List.all_eq_true.1 h pre.length (by rw [e]; simp)
  rw [e] at this
  simp only [List.getElem?_append_right (le_refl _), Nat.sub_self, List.getElem?_cons_zero, List.take_left] at this
  simpa using List.all_eq_true.1 this f hf

def noExplicitB (log : ILog Val D) : Bool := log.all fun e => match e.1 with | .marginalise _ => false | _ => true

theorem noExplicit_of_b {log : ILog Val D} (h : noExplicitB log = true) (k : Int) (r : Resp Val D) : (IOp.marginalise k, r) ∉ log :=
  fun hm => by simpa using List.all_eq_true.1 h _ hm

/-- The demonstration history meets the hypotheses and marginalises. -/
example : ∃ s, IReaches .nodeCount demoApi ⟨[], OMap.sorted_nil⟩ demoIsamLog s ∧ MargKnown [] s.opt.2 ∧ margVars s.opt.2 ≠ [] := by
  have h1 : allOptimisedB demoIsamLog = true := by decide +kernel
  have h2 : stereoOkB (calls demoIsamLog).reverse = true := by decide +kernel
  have h3 : noExplicitB demoIsamLog = true := by decide +kernel
  have h4 : notAheadB demoIsamLog = true := by decide +kernel
  have h5 : margVars demoIsamState.opt.2 ≠ [] := by decide +kernel
  exact ⟨_, demoIsam_reaches, C157_histories demoIsam_reaches (fun o => o.2) (allOptimised_of_b h1) (stereoOk_of_b h2)
    (noExplicit_of_b h3) (notAhead_of_b h4), h5⟩

/-- A landmark with id 0 tracked at the keys 3 and 4 before `optimise(2)`. -/
def demoAhead : List (IOp Nat Nat) :=
  [.setMarginalisation true 2, .call .setExtrinsic, .call (.setCalibration (fun p d => p + d)),
   .call (.setPose 0 10), .call (.setPose 1 20), .call (.setPose 2 30), .call (.setPose 3 40), .call (.setPose 4 50),
   .call (.stereo 3 [(0, 5)]), .call (.stereo 4 [(0, 4)]), .optimise 2]

theorem demoAhead_runs :
    (irun .nodeCount demoApi demoAhead ([], { opt := (⟨[], OMap.sorted_nil⟩, []) })).isSome = true := by decide +kernel

/-- The history. -/
def demoAheadLog : ILog Nat Nat := (Option.get _ demoAhead_runs).1

/-- State after it. -/
def demoAheadState : RIsam Nat Nat { m : OMap Key Nat // m.Sorted } := (Option.get _ demoAhead_runs).2

theorem demoAhead_reaches : IReaches .nodeCount demoApi ⟨[], OMap.sorted_nil⟩ demoAheadLog demoAheadState :=
  ireaches_get demoAhead_runs

attribute [irreducible] demoAheadLog demoAheadState

/-- **C157.** The order of the stereo frames matters: a landmark of a frame that is ahead of `optimise(k)` can be given for
marginalisation although the optimiser does not have it. -/
theorem C157_needs_order : ∃ log s, IReaches .nodeCount demoApi ⟨[], OMap.sorted_nil⟩ log s ∧ AllOptimised log ∧
    StereoOk (calls log).reverse ∧ keyOf .S 0 ∈ margVars s.opt.2 ∧ keyOf .S 0 ∉ handedVars s.opt.2 := by
  have h1 : allOptimisedB demoAheadLog = true := by decide +kernel
  have h2 : stereoOkB (calls demoAheadLog).reverse = true := by decide +kernel
  have h3 : keyOf .S 0 ∈ margVars demoAheadState.opt.2 := by decide +kernel
  have h4 : keyOf .S 0 ∉ handedVars demoAheadState.opt.2 := by decide +kernel
  exact ⟨demoAheadLog, demoAheadState, demoAhead_reaches, allOptimised_of_b h1, stereoOk_of_b h2, h3, h4⟩

/-- A pose set after the optimisation of its key, and an explicit marginalisation. -/
def demoExplicit : List (IOp Nat Nat) :=
  [.call (.setPose 1 20), .call (.create .priorPose 1 1), .optimise 1, .call (.setPose 0 10), .marginalise 0]

theorem demoExplicit_runs :
    (irun .nodeCount demoApi demoExplicit ([], { opt := (⟨[], OMap.sorted_nil⟩, []) })).isSome = true := by decide +kernel

/-- **C157.** An explicit `marginalise(k)` can give the optimiser a variable that was set after the last `optimise`. -/
theorem C157_needs_window : ∃ log s, IReaches .nodeCount demoApi ⟨[], OMap.sorted_nil⟩ log s ∧ AllOptimised log ∧
    keyOf .X 0 ∈ margVars s.opt.2 ∧ keyOf .X 0 ∉ handedVars s.opt.2 :=
  ⟨_, _, ireaches_get demoExplicit_runs, allOptimised_of_b (by decide +kernel), by decide +kernel, by decide +kernel⟩

end Graph

namespace BackEnd

open Graph M

variable {Val D O C I : Type}

/-- **C157.** In every run of the back end, for every configuration and every interleaving, only variables that the optimiser was
handed before are given to it for marginalisation. -/
theorem C157_node {er : EndRead} {api : Api Val D O C I} {cfg : Cfg} {o : O} {s : Sys Val D (O × List (Event Val D))}
    (hest : ∀ o, (api.opt.estimate o).Sorted) (h : NodeReach er (recorded api) cfg (o, []) s) : MargKnown [] (accepted s) := by
  obtain ⟨log, hl⟩ := hist_reach (api := recorded api) (opt := api.opt) rfl h
  refine C157_histories hl.reach hest (fun k r hm => hl.done _ hm) hl.stereo hl.auto fun pre k r post e f hf => ?_
  obtain ⟨st, -, h2, h3, -⟩ := hl.seen pre k r post e
  obtain ⟨n, hn⟩ := nodeSeen_good (.reach h)
  obtain ⟨x, hx, hle⟩ := h3 f hf
  exact le_trans hle (hn.stereo _ h2 x hx)

/-- **C157.** The same for the node with any optimiser: there is a sequence of calls that its optimiser accepted and that leads to its
state, in which a variable is given for marginalisation at most once, and only after it was handed over. -/
theorem C157_any_optimiser {er : EndRead} {api : Api Val D O C I} {cfg : Cfg} {o : O} {s : Sys Val D O}
    (hest : ∀ o, (api.opt.estimate o).Sorted) (h : NodeReach er api cfg o s) :
    ∃ evs, replay api.opt o evs = .ok s.be.isam.opt ∧ MargKnown [] evs ∧ (margVars evs).Nodup := by
  obtain ⟨s', h', rfl⟩ := recorded_reach h
  obtain ⟨log, hl, -⟩ := C156_history h'
  exact ⟨accepted s', replay_reach hl, C157_node hest h', (C156_once h').2⟩

/-- The demonstration run with a window of one key. -/
def demoWindow : Option (Sys Int Int (Unit × List (Event Int Int))) :=
  nodeRun .nodeCount (recorded demoApi) { demoCfg with marginalisation := some 1 } demoEvents
    { be := (initSys { demoCfg with marginalisation := some 1 } ((), [])).2 }

theorem demoWindow_runs : demoWindow.isSome = true := by decide +kernel

/-- The state it ends in. -/
def demoWindowState : Sys Int Int (Unit × List (Event Int Int)) := demoWindow.get demoWindow_runs

theorem demoWindow_reach :
    NodeReach .nodeCount (recorded demoApi) { demoCfg with marginalisation := some 1 } ((), []) demoWindowState :=
  nodeReach_run (.init (Prod.ext (by decide +kernel) rfl)) (Option.some_get demoWindow_runs).symm

attribute [irreducible] demoWindowState

/-- It marginalises the states of the keys 0 and 1. -/
example : MargKnown [] (accepted demoWindowState) ∧
    [keyOf .X 0, keyOf .X 1, keyOf .V 1].all (fun raw => (margVars (accepted demoWindowState)).contains raw) = true := by
  have h : ∀ o, (demoApi.opt.estimate o).Sorted := fun _ => List.Pairwise.nil
  exact ⟨C157_node h demoWindow_reach, by decide +kernel⟩

end BackEnd

end Serpent
