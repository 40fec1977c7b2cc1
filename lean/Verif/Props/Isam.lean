import Verif.Lemmas.IsamLink

/-!
# Properties of `ISAM2GraphManager` (C14, C15, C16)
-/

namespace Serpent

namespace Graph

open M

variable {Val D O : Type}

/-! ## C14 -/

/-- **C14.** After a successful `optimise(k)`, for any optimiser: `opt_key()` is `k`; the optimiser was updated, and every
getter of a variable in its estimate returns that estimate, every other getter what it returned before; and no factor
with key up to `k` is left waiting. -/
theorem C14_optimise {er : EndRead} {api : OptApi Val D O} {o : O} {log : ILog Val D} {s s' : RIsam Val D O} {k : Int}
    (h : IReaches er api o log s) (hest : ∀ o, (api.estimate o).Sorted)
    (hs : istep er api (.optimise k) s = some (.done, s')) :
    s'.optKey = k ∧
    (∃ fs vs o', api.update s.opt.1 fs vs = .ok o' ∧
      ∀ c j, 0 ≤ j → j < 2 ^ 56 → getVal s'.gm c j =
        match (api.estimate o').find (keyOf c j) with
        | some v => .ok v
        | none => getVal s.gm c j) ∧
    ∀ m, m ≤ k → ∃ g, step er (.extractFactors m) s'.gm = some (.factors [], g) := by
  obtain ⟨glog, hl⟩ := link_exists h
  have hvals : ∀ {fs : List (Factor D)} {g1 g2 g3 : GM Val D} {vs : OMap Key Val} {o' : O},
      step er (.extractFactors k) s.gm = some (.factors fs, g1) →
      step er (.extractValues k) g1 = some (.values vs, g2) →
      step er (.updateFromValues (api.estimate o')) g2 = some (.done, g3) →
      ∀ c j, 0 ≤ j → j < 2 ^ 56 → getVal g3 c j =
        match (api.estimate o').find (keyOf c j) with
        | some v => .ok v
        | none => getVal s.gm c j := by
    intro fs g1 g2 g3 vs o' h1 h2 h4 c j h0 hj
    have e1 : g1.values = s.gm.values := by rw [step_state h1]; rfl
    have e2 : g2.values = g1.values := by
      obtain ⟨n, l, e⟩ := extractNewValues_frame er k g1
      rw [step_state h2]; simp only [stateAfter]; rw [e]
    have h4' : respOf (fun _ => .done) (updateFromValues (api.estimate o') g2) = some (.done, g3) := h4
    obtain ⟨e3, h5⟩ := respOf_some h4'
    have hok : (updateFromValues (api.estimate o') g2).1 = .ok () := by
      rcases h5 with ⟨u, h5, _⟩ | ⟨_, h5⟩
      · exact h5
      · simp at h5
    obtain ⟨_, x, _⟩ := C13_effect ((hl.reaches.step h1).step h2) (api.estimate o') (hest o')
    have x := x hok (keyOf c j)
    rw [← e3, e2, e1] at x
    simp only [getVal, keyOf_eq h0 hj, Outcome.bind_ok, x]
    cases hf : (api.estimate o').find (keyOf c j) with
    | some v => simp
    | none => simp
  have hfac : ∀ {fs : List (Factor D)} {g1 g2 g3 : GM Val D} {vs : OMap Key Val} {o' : O},
      step er (.extractFactors k) s.gm = some (.factors fs, g1) →
      step er (.extractValues k) g1 = some (.values vs, g2) →
      step er (.updateFromValues (api.estimate o')) g2 = some (.done, g3) →
      ∀ m, m ≤ k → (extractFactorsLoop m g3.newFactors).1 = [] := by
    intro fs g1 g2 g3 vs o' h1 h2 h4 m hm
    have e1 : g1.newFactors = s.gm.newFactors.filter (fun e => decide (k < e.1)) := by
      rw [step_state h1]
      simp only [stateAfter, extractNewFactors]
      rw [extractFactorsLoop_eq _ _ (reaches_finv hl.reaches).newFactors]
    have e2 : g2.newFactors = g1.newFactors := by
      obtain ⟨n, l, e⟩ := extractNewValues_frame er k g1
      rw [step_state h2]; simp only [stateAfter]; rw [e]
    have e3 : g3.newFactors = g2.newFactors := by
      obtain ⟨_, _, _, v, n, e⟩ := C13_effect ((hl.reaches.step h1).step h2) (api.estimate o') (hest o')
      rw [step_state h4]; simp only [stateAfter]; rw [e]
    have hsorted := (reaches_finv (((hl.reaches.step h1).step h2).step h4)).newFactors
    rw [extractFactorsLoop_eq _ _ hsorted]
    dsimp only
    rw [List.flatMap_eq_nil_iff]
    intro e he
    exfalso
    rw [e3, e2, e1] at he
    obtain ⟨he1, he2⟩ := List.mem_filter.1 he
    obtain ⟨_, he3⟩ := List.mem_filter.1 he1
    simp at he2 he3
    omega
  obtain ⟨seg, ev, hr⟩ := optRun_of_step hs
  cases hr with
  | @plain fs g1 vs g2 o' g3 h1 h2 h3 h4 h5 =>
    refine ⟨rfl, ⟨fs, vs, o', h3, hvals h1 h2 h4⟩, fun m hm => ?_⟩
    rw [show step er (.extractFactors m) g3 = some (.factors (extractFactorsLoop m g3.newFactors).1, _) from rfl,
      hfac h1 h2 h4 m hm]
    exact ⟨_, rfl⟩
  | @marg fs g1 vs g2 o1 g3 ks g4 o2 h1 h2 h3 h4 h5 h6 h7 =>
    have e4 : g4.values = g3.values ∧ g4.newFactors = g3.newFactors := by rw [step_state h6]; exact ⟨rfl, rfl⟩
    refine ⟨rfl, ⟨fs, vs, o1, h3, ?_⟩, fun m hm => ?_⟩
    · intro c j h0 hj
      rw [← hvals h1 h2 h4 c j h0 hj]
      simp only [getVal, e4.1]
    · rw [show step er (.extractFactors m) g4 = some (.factors (extractFactorsLoop m g4.newFactors).1, _) from rfl,
        e4.2, hfac h1 h2 h4 m hm]
      exact ⟨_, rfl⟩

/-! ## C15 -/

/-- **C15.** No variable is ever handed to the optimiser twice, whatever the calls and whatever threw. -/
theorem C15_no_variable_twice {er : EndRead} {api : OptApi Val D O} {o : O} {log : ILog Val D} {s : RIsam Val D O}
    (h : IReaches er api o log s) : (handedVars s.opt.2).Nodup := by
  obtain ⟨glog, hl⟩ := link_exists h
  exact (reaches_same hl.reaches).2.sublist hl.vars

/-- **C15.** No factor is handed over twice: the factors handed over are part of the factors created, counted with
multiplicity. -/
theorem C15_no_factor_twice {er : EndRead} {api : OptApi Val D O} {o : O} {log : ILog Val D} {s : RIsam Val D O}
    (h : IReaches er api o log s) (hok : StereoOk (calls log).reverse) :
    ∃ rest, (handedFactors s.opt.2 ++ rest).Perm ((created (calls log).reverse).map Prod.snd) := by
  obtain ⟨glog, hl⟩ := link_exists h
  have hc := C05_conservation hl.reaches (hl.stereo hok)
  rw [hl.created] at hc
  obtain ⟨rest, hr⟩ := hl.factors.exists_perm_append
  refine ⟨rest ++ (waiting glog.reverse).map Prod.snd, ?_⟩
  rw [← List.append_assoc]
  exact (hr.symm.append_right _).trans hc

theorem wellFed_append (seen : List Key) (a b : List (Event Val D)) :
    WellFed seen (a ++ b) ↔ WellFed seen a ∧ WellFed (seen ++ handedVars a) b := by
  induction a generalizing seen with
  | nil => simp [WellFed, handedVars]
  | cons x a ih =>
    cases x with
    | update fs vs =>
      simp only [List.cons_append, WellFed, handedVars, ih, ← List.append_assoc, and_assoc]
    | marginalize ks => simp only [List.cons_append, WellFed, handedVars, ih]

theorem mem_of_listsInKeyOrder {α : Type} {l : List α} {w : List (Int × α)} (h : ListsInKeyOrder l w) {a : α}
    (ha : a ∈ l) : ∃ e ∈ w, e.2 = a := by
  obtain ⟨t, ⟨_, ht⟩, rfl⟩ := h
  obtain ⟨e, he, rfl⟩ := List.mem_map.1 ha
  refine ⟨e, ?_, rfl⟩
  have : e ∈ t.filter (fun x => decide (x.1 = e.1)) := List.mem_filter.2 ⟨he, by simp⟩
  rw [ht] at this
  exact (List.mem_filter.1 this).1

/-- If the states of the factors for keys up to `k` have values whenever `optimise(k)` is called, the optimiser is well fed. -/
theorem wellFed_of_valued {er : EndRead} {api : OptApi Val D O} {o : O} {log : ILog Val D} {s : RIsam Val D O}
    (h : IReaches er api o log s) (ha : AllOptimised log) (hok : StereoOk (calls log).reverse)
    (hd : ∀ pre k r post st, log = pre ++ (IOp.optimise k, r) :: post → IReaches er api o pre st →
      ∀ e ∈ created (calls pre).reverse, e.1 ≤ k → ∀ c j, c ≠ Fam.S → 0 ≤ j → j < 2 ^ 56 → keyOf c j ∈ e.2.vars →
        st.gm.values.contains (keyOf c j) = true) : WellFed [] s.opt.2 := by
  induction h with
  | init => trivial
  | @step log s s' op r hr hs ih =>
    have hok' : StereoOk (calls log).reverse := by
      rw [calls_append, List.reverse_append] at hok
      cases op with
      | call op =>
        simp only [calls, List.reverse_singleton, List.singleton_append] at hok
        cases op <;> simp only [StereoOk] at hok <;> first | exact hok | exact hok.2.2.2
      | _ => simpa [calls] using hok
    have ih := ih (allOptimised_left ha) hok' fun pre k r' post st e =>
      hd pre k r' (post ++ [(op, r)]) st (by rw [e]; simp)
    obtain ⟨glog, hl⟩ := link_exists hr
    have feed : ∀ {k : Int} {fs : List (Factor D)} {g1 g2 : GM Val D} {vs : OMap Key Val}, op = .optimise k →
        step er (.extractFactors k) s.gm = some (.factors fs, g1) →
        step er (.extractValues k) g1 = some (.values vs, g2) →
        ∀ f ∈ fs, ∀ raw ∈ f.vars, raw ∈ handedVars s.opt.2 ++ vs.map Prod.fst := by
      intro k fs g1 g2 vs hop h1 h2 f hf
      obtain ⟨hx, hv, _⟩ := hl.all (allOptimised_left ha)
      have hst := hl.stereo hok'
      obtain ⟨fs', g', h1', hlist⟩ := C05_extraction hl.reaches hst k
      rw [h1] at h1'
      simp at h1'
      obtain ⟨rfl, rfl⟩ := h1'
      obtain ⟨e, he, rfl⟩ := mem_of_listsInKeyOrder hlist hf
      obtain ⟨he1, he2⟩ := List.mem_filter.1 he
      have hlog : (glog ++ [(Op.extractFactors k, Resp.factors fs)]).reverse =
          (Op.extractFactors k, Resp.factors fs) :: glog.reverse := by simp
      have hcr : e ∈ created (glog ++ [(Op.extractFactors k, Resp.factors fs)]).reverse := by
        rw [hlog]; show e ∈ created glog.reverse; exact waiting_sub _ _ he1
      have := extraction_feeds (hl.reaches.step h1) (by rw [hlog]; exact hst) (by
        rw [hlog]
        intro m r hm
        rcases List.mem_cons.1 hm with e | hm
        · simp at e
        · exact hx m r hm) h2 hcr (by simpa using he2) (by
        intro c j hc h0 hj hin
        have e1 : g1.values = s.gm.values := by rw [step_state h1]; rfl
        rw [e1]
        refine hd log k r [] s (by rw [hop]) hr e ?_ (by simpa using he2) c j hc h0 hj hin
        rw [← hl.created]; exact waiting_sub _ _ he1)
      rw [hlog] at this
      rw [hv]
      exact this
    have same : s'.opt.2 = s.opt.2 → WellFed [] s'.opt.2 := fun e => by rw [e]; exact ih
    cases op with
    | call op =>
      apply same
      simp only [istep] at hs
      split at hs
      · split at hs
        · simp at hs; rw [← hs.2]
        · simp at hs
      · simp at hs
    | setMarginalisation b w =>
      apply same
      simp only [istep, setMarginalisation, modify_run, irespOf] at hs
      cases b <;> simp at hs <;> rw [← hs.2]
    | marginalise k =>
      obtain ⟨seg, ev, hm⟩ := margRun_of_step hs
      cases hm with
      | refused => exact ih
      | threw => exact ih
      | done => rw [wellFed_append]; exact ⟨ih, trivial⟩
    | optimise k =>
      obtain ⟨seg, ev, hm⟩ := optRun_of_step hs
      have hdone := allOptimised_last ha
      subst hdone
      cases hm with
      | @plain fs g1 vs g2 o' g3 h1 h2 h3 h4 h5 =>
        rw [wellFed_append]
        exact ⟨ih, feed rfl h1 h2, trivial⟩
      | @marg fs g1 vs g2 o1 g3 ks g4 o2 h1 h2 h3 h4 h5 h6 h7 =>
        rw [wellFed_append]
        exact ⟨ih, feed rfl h1 h2, trivial⟩

/-- **C15.** In a disciplined history (states set before `optimise` is called with the key of a factor on them), every
factor handed to the optimiser is on variables handed over in the same or an earlier call. -/
theorem C15_known_variables {er : EndRead} {api : OptApi Val D O} {o : O} {log : ILog Val D} {s : RIsam Val D O}
    (h : IReaches er api o log s) (ha : AllOptimised log) (hok : StereoOk (calls log).reverse)
    (hd : Disciplined log) : WellFed [] s.opt.2 :=
  wellFed_of_valued h ha hok fun pre k r post _ e hst x hx hle c j hc h0 hj hin => by
    obtain ⟨glog, hl⟩ := link_exists hst
    exact hl.set c j h0 hj (hd pre k r post e x hx hle c j hc h0 hj hin)

/-! ## C16 -/

/-- **C16.** `marginalise(k)` with `k` above `opt_key()` throws and changes nothing, in every state. -/
theorem C16_refused (er : EndRead) (api : OptApi Val D O) (s : RIsam Val D O) (k : Int) (hk : s.optKey < k) :
    istep er api (.marginalise k) s = some (.threw, s) := by
  simp only [istep, marginalise, bind_run, get_run]
  rw [if_pos hk]
  rfl

/-- **C16.** No variable is given to the optimiser for marginalisation twice, whatever the calls and whatever threw. -/
theorem C16_never_twice {er : EndRead} {api : OptApi Val D O} {o : O} {log : ILog Val D} {s : RIsam Val D O}
    (h : IReaches er api o log s) : (margVars s.opt.2).Nodup := by
  obtain ⟨glog, hl⟩ := link_exists h
  exact (List.nodup_append.1 (reaches_uinv hl.reaches).nodup).2.1.sublist hl.marg

/-- What a marginalisation up to `m` takes. -/
theorem marg_keys {er : EndRead} {glog : Log Val D} {g g' : GM Val D} {m : Int} {ks : List Key}
    (h : Reaches er glog g) (hs : step er (.extractKeys m) g = some (.keys ks, g')) (raw : Key) :
    raw ∈ ks ↔ raw ∉ extractedUnmarg glog.reverse ∧
      ∃ c j, 0 ≤ j ∧ j < 2 ^ 56 ∧ raw = keyOf c j ∧ j ≤ m ∧ g.values.contains raw = true := by
  have hs' : respOf .keys (extractUnmarginalisedKeys m g) = some (.keys ks, g') := hs
  obtain ⟨_, h2⟩ := respOf_some hs'
  have : ks = (extractKeysLoop m g.unmarg).1 := by
    rcases h2 with ⟨a, h2, e⟩ | ⟨_, e⟩
    · injection e with e
      subst e
      injection h2 with h2
      exact h2.symm
    · simp at e
  rw [this, (extractKeys_spec (reaches_uinv h) m).2.2 raw]
  constructor
  · rintro ⟨c, j, a, b, d, e⟩
    obtain ⟨x, y, z⟩ := sym_ok_iff.1 a
    exact ⟨e, c, j, x, y, z, b, d⟩
  · rintro ⟨e, c, j, x, y, z, b, d⟩
    exact ⟨c, j, by rw [z]; exact keyOf_eq x y, b, d, e⟩

theorem feedback_contains {er : EndRead} {glog : Log Val D} {g g' : GM Val D} {vs : OMap Key Val} {r : Resp Val D}
    (h : Reaches er glog g) (hvs : vs.Sorted) (hs : step er (.updateFromValues vs) g = some (r, g')) (raw : Key) :
    g'.values.contains raw = g.values.contains raw := by
  rw [step_state hs]
  exact (C13_effect h vs hvs).1 raw

/-- **C16.** When an `optimise(k)` with the window `w` marginalises, the variables it gives to the optimiser are exactly
those with a value and index up to `k - w` that were not given before, each once, and `marginalisation_key()` becomes
`k - w`. The index of a landmark is its id, which is why this is partial: see `C16_fails_landmark`. -/
theorem C16_window_step_partial {er : EndRead} {api : OptApi Val D O} {o : O} {log : ILog Val D}
    {s s' : RIsam Val D O} {k : Int} (h : IReaches er api o log s) (hest : ∀ o, (api.estimate o).Sorted)
    (ha : AllOptimised log) (hm : MargAccepted log.reverse)
    (hs : istep er api (.optimise k) s = some (.done, s'))
    (htrig : s.marginalisation = true ∧ s.margKey ≤ k - s.window) :
    s'.margKey = k - s.window ∧ ∃ fs vs ks, s'.opt.2 = s.opt.2 ++ [.update fs vs, .marginalize ks] ∧ ks.Nodup ∧
      ∀ raw, raw ∈ ks ↔ raw ∉ margVars s.opt.2 ∧
        ∃ c j, 0 ≤ j ∧ j < 2 ^ 56 ∧ raw = keyOf c j ∧ j ≤ k - s.window ∧ ∃ v, getVal s.gm c j = .ok v := by
  obtain ⟨glog, hl⟩ := link_exists h
  have htw := C16_never_twice (h.step hs)
  obtain ⟨seg, ev, hr⟩ := optRun_of_step hs
  cases hr with
  | plain h1 h2 h3 h4 h5 => exact absurd htrig h5
  | @marg fs g1 vs g2 o1 g3 ks g4 o2 h1 h2 h3 h4 h5 h6 h7 =>
    refine ⟨rfl, fs, vs, ks, rfl, ?_, ?_⟩
    · rw [margVars_append] at htw
      have := (List.nodup_append.1 htw).2.1
      simpa [margVars] using this
    · intro raw
      have hr3 := (((hl.reaches.step h1).step h2).step h4)
      rw [marg_keys hr3 h6 raw]
      have hx : extractedUnmarg ((((glog ++ [(Op.extractFactors k, Resp.factors fs)]) ++
          [(Op.extractValues k, Resp.values vs)]) ++
          [(Op.updateFromValues (api.estimate o1), Resp.done)])).reverse = margVars s.opt.2 := by
        rw [hl.allMarg ha hm]; simp [extractedUnmarg]
      rw [hx]
      have e1 : g1.values = s.gm.values := by rw [step_state h1]; rfl
      have e2 : g2.values = g1.values := by
        obtain ⟨n, l, e⟩ := extractNewValues_frame er k g1
        rw [step_state h2]; simp only [stateAfter]; rw [e]
      have e3 := feedback_contains ((hl.reaches.step h1).step h2) (hest o1) h4 raw
      rw [e2, e1] at e3
      rw [e3]
      refine and_congr_right fun _ => ?_
      constructor
      · rintro ⟨c, j, x, y, z, b, d⟩
        obtain ⟨v, hv⟩ := contains_iff.1 d
        exact ⟨c, j, x, y, z, b, v, (getVal_iff x y).2 (by rw [← z]; exact hv)⟩
      · rintro ⟨c, j, x, y, z, b, v, hv⟩
        exact ⟨c, j, x, y, z, b, contains_iff.2 ⟨v, by rw [z]; exact (getVal_iff x y).1 hv⟩⟩

/-- What holds throughout a history with a sliding window. -/
structure SlideInv (w : Nat) (log : ILog Val D) (s : RIsam Val D O) : Prop where
  window : s.marginalisation = true → s.window = w
  enabled : (∃ r, (IOp.setMarginalisation true w, r) ∈ log) → s.marginalisation = true
  key : s.margKey = -1 ∨ ∃ k r, (IOp.optimise k, r) ∈ log ∧ s.margKey = k - w
  ge : -1 ≤ s.margKey
  low : ∀ raw ∈ margVars s.opt.2, ∃ c j, 0 ≤ j ∧ j < 2 ^ 56 ∧ raw = keyOf c j ∧ j ≤ s.margKey

theorem sliding_left {w : Nat} {log : ILog Val D} {x : IOp Val D × Resp Val D} (h : Sliding w (log ++ [x])) :
    Sliding w log :=
  ⟨fun b w' r hm => h.window b w' r (List.mem_append_left _ hm), fun k r hm => h.noExplicit k r (List.mem_append_left _ hm),
    (List.pairwise_append.1 h.increasing).1⟩

theorem slideInv {er : EndRead} {api : OptApi Val D O} {o : O} {log : ILog Val D} {s : RIsam Val D O} {w : Nat}
    (h : IReaches er api o log s) (hw : Sliding w log) : SlideInv w log s := by
  induction h with
  | init => exact ⟨by simp, by simp, Or.inl rfl, by simp, by simp [margVars]⟩
  | @step log s s' op r hr hs ih =>
    have ih := ih (sliding_left hw)
    have same : s'.marginalisation = s.marginalisation → s'.window = s.window → s'.margKey = s.margKey →
        margVars s'.opt.2 = margVars s.opt.2 → (∀ b w', op ≠ .setMarginalisation b w') →
        SlideInv w (log ++ [(op, r)]) s' := by
      intro e1 e2 e3 e4 hop
      refine ⟨by rw [e1, e2]; exact ih.window, ?_, ?_, by rw [e3]; exact ih.ge, by rw [e4, e3]; exact ih.low⟩
      · rintro ⟨r', hm⟩
        rw [e1]
        apply ih.enabled
        rcases List.mem_append.1 hm with hm | hm
        · exact ⟨r', hm⟩
        · simp at hm; exact absurd hm.1.symm (hop _ _)
      · rw [e3]
        rcases ih.key with e | ⟨k, r', hm, e⟩
        · exact Or.inl e
        · exact Or.inr ⟨k, r', List.mem_append_left _ hm, e⟩
    cases op with
    | call op =>
      have : s'.marginalisation = s.marginalisation ∧ s'.window = s.window ∧ s'.margKey = s.margKey ∧
          s'.opt = s.opt := by
        simp only [istep] at hs
        split at hs
        · split at hs
          · simp at hs; rw [← hs.2]; simp
          · simp at hs
        · simp at hs
      exact same this.1 this.2.1 this.2.2.1 (by rw [this.2.2.2]) (by simp)
    | setMarginalisation b w' =>
      obtain ⟨rfl, rfl⟩ := hw.window b w' r (by simp)
      simp only [istep, setMarginalisation, modify_run, irespOf] at hs
      simp at hs
      obtain ⟨rfl, rfl⟩ := hs
      refine ⟨by simp, by simp, ?_, ih.ge, ih.low⟩
      rcases ih.key with e | ⟨k, r', hm, e⟩
      · exact Or.inl e
      · exact Or.inr ⟨k, r', List.mem_append_left _ hm, e⟩
    | marginalise k => exact absurd (by simp) (hw.noExplicit k r)
    | optimise k =>
      obtain ⟨glog, hl⟩ := link_exists hr
      obtain ⟨seg, ev, hm⟩ := optRun_of_step hs
      cases hm with
      | extractThrew => exact same rfl rfl rfl rfl (by simp)
      | updateThrew => exact same rfl rfl rfl rfl (by simp)
      | feedbackThrew => exact same rfl rfl rfl (by rw [margVars_append]; simp [margVars]) (by simp)
      | plain => exact same rfl rfl rfl (by rw [margVars_append]; simp [margVars]) (by simp)
      | @margThrew fs g1 vs g2 o1 g3 ks g4 h1 h2 h3 h4 h5 h6 h7 =>
        refine ⟨ih.window, ?_, ?_, le_trans ih.ge h5.2, ?_⟩
        · rintro ⟨r', hm⟩
          apply ih.enabled
          rcases List.mem_append.1 hm with hm | hm
          · exact ⟨r', hm⟩
          · simp at hm
        · exact Or.inr ⟨k, _, List.mem_append_right _ (by simp; rfl), by rw [ih.window h5.1]⟩
        · intro raw hraw
          rw [margVars_append] at hraw
          simp [margVars] at hraw
          obtain ⟨c, j, x, y, z, b⟩ := ih.low raw hraw
          exact ⟨c, j, x, y, z, le_trans b h5.2⟩
      | @marg fs g1 vs g2 o1 g3 ks g4 o2 h1 h2 h3 h4 h5 h6 h7 =>
        refine ⟨ih.window, ?_, ?_, le_trans ih.ge h5.2, ?_⟩
        · rintro ⟨r', hm⟩
          apply ih.enabled
          rcases List.mem_append.1 hm with hm | hm
          · exact ⟨r', hm⟩
          · simp at hm
        · exact Or.inr ⟨k, _, List.mem_append_right _ (by simp; rfl), by rw [ih.window h5.1]⟩
        · intro raw hraw
          rw [margVars_append] at hraw
          rcases List.mem_append.1 hraw with hraw | hraw
          · obtain ⟨c, j, x, y, z, b⟩ := ih.low raw hraw
            exact ⟨c, j, x, y, z, le_trans b h5.2⟩
          · simp [margVars] at hraw
            have hr3 := (((hl.reaches.step h1).step h2).step h4)
            obtain ⟨_, c, j, x, y, z, b, _⟩ := (marg_keys hr3 h6 raw).1 hraw
            exact ⟨c, j, x, y, z, b⟩

theorem margAccepted_of_sliding {w : Nat} {log : ILog Val D} (h : Sliding w log) : MargAccepted log.reverse := by
  have : ∀ l : List (IOp Val D × Resp Val D), (∀ k r, (IOp.marginalise k, r) ∉ l) → MargAccepted l := by
    intro l hl
    induction l with
    | nil => trivial
    | cons x l ih =>
      obtain ⟨op, r⟩ := x
      have ih := ih (fun k r hm => hl k r (List.mem_cons_of_mem _ hm))
      cases op <;> simp only [MargAccepted] <;> first
        | exact ih
        | exact absurd (List.mem_cons_self ..) (hl _ r)
  exact this _ (fun k r hm => h.noExplicit k r (List.mem_reverse.1 hm))

/-- **C16.** With one window `w` enabled, no explicit marginalise calls and non-decreasing optimise keys, after
`optimise(k)` the state variables given to the optimiser for marginalisation are exactly those that have been set and
have index at most `k - w`; and `marginalisation_key()` is `k - w` (unless `k - w < -1`, when it is still `-1`).
Partial because the same is false for landmarks: see `C16_fails_landmark`. -/
theorem C16_window_partial {er : EndRead} {api : OptApi Val D O} {o : O} {log : ILog Val D}
    {s s' : RIsam Val D O} {k : Int} {w : Nat} (h : IReaches er api o log s) (hest : ∀ o, (api.estimate o).Sorted)
    (ha : AllOptimised log) (hw : Sliding w (log ++ [(.optimise k, .done)]))
    (hen : ∃ r, (IOp.setMarginalisation true w, r) ∈ log)
    (hs : istep er api (.optimise k) s = some (.done, s')) :
    (∀ c j, c ≠ Fam.S → 0 ≤ j → j < 2 ^ 56 →
      (keyOf c j ∈ margVars s'.opt.2 ↔ j ≤ k - w ∧ ∃ v, getVal s.gm c j = .ok v)) ∧
    s'.margKey = max (-1) (k - w) := by
  have hw' := sliding_left hw
  have inv := slideInv h hw'
  have hen := inv.enabled hen
  have hwin := inv.window hen
  obtain ⟨glog, hl⟩ := link_exists h
  have hset : ∀ raw ∈ margVars s.opt.2, s.gm.values.contains raw = true := fun raw hr =>
    (reaches_uinv hl.reaches).given raw (hl.marg.subset hr)
  have hle : s.margKey = -1 ∨ s.margKey ≤ k - w := by
    rcases inv.key with e | ⟨k0, r0, hm, e⟩
    · exact Or.inl e
    · right
      have := (List.pairwise_append.1 hw.increasing).2.2 _ hm (.optimise k, .done) (by simp) k0 k rfl rfl
      omega
  by_cases htrig : s.margKey ≤ k - w
  · obtain ⟨e1, fs, vs, ks, e2, _, e3⟩ := C16_window_step_partial h hest ha (margAccepted_of_sliding hw') hs
      ⟨hen, by rw [hwin]; exact htrig⟩
    rw [hwin] at e1 e3
    refine ⟨?_, by rw [e1]; have := inv.ge; omega⟩
    intro c j _ h0 hj
    have e4 : margVars s'.opt.2 = margVars s.opt.2 ++ ks := by rw [e2, margVars_append]; simp [margVars]
    rw [e4, List.mem_append, e3]
    constructor
    · rintro (hin | ⟨_, c', j', x, y, z, b, v, hv⟩)
      · obtain ⟨c', j', x, y, z, b⟩ := inv.low _ hin
        obtain ⟨rfl, rfl⟩ := sym_inj (keyOf_eq h0 hj) (by rw [z]; exact keyOf_eq x y)
        obtain ⟨v, hv⟩ := contains_iff.1 (hset _ hin)
        exact ⟨le_trans b htrig, v, (getVal_iff h0 hj).2 hv⟩
      · obtain ⟨rfl, rfl⟩ := sym_inj (keyOf_eq h0 hj) (by rw [z]; exact keyOf_eq x y)
        exact ⟨b, v, hv⟩
    · rintro ⟨b, v, hv⟩
      by_cases hin : keyOf c j ∈ margVars s.opt.2
      · exact Or.inl hin
      · exact Or.inr ⟨hin, c, j, h0, hj, rfl, b, v, hv⟩
  · have hm1 : s.margKey = -1 := by rcases hle with e | e <;> omega
    obtain ⟨seg, ev, hr⟩ := optRun_of_step hs
    cases hr with
    | marg h1 h2 h3 h4 h5 => rw [hwin] at h5; exact absurd h5.2 htrig
    | @plain fs g1 vs g2 o1 g3 h1 h2 h3 h4 h5 =>
      refine ⟨?_, by show s.margKey = _; omega⟩
      intro c j _ h0 hj
      constructor
      · intro hin
        rw [margVars_append] at hin
        simp [margVars] at hin
        obtain ⟨c', j', x, y, z, b⟩ := inv.low _ hin
        omega
      · rintro ⟨b, _⟩; omega

/-! ## Non-vacuity and counterexamples -/

/-- An optimiser that adds 100 to every value when it is first handed over, and accepts everything. -/
def demoApi : OptApi Nat Nat { m : OMap Key Nat // m.Sorted } where
  update o _ vs := .ok ⟨vs.foldl (fun m e => m.assign e.1 (e.2 + 100)) o.1, by
    obtain ⟨m, hm⟩ := o
    induction vs generalizing m with
    | nil => exact hm
    | cons e vs ih => exact ih _ (OMap.sorted_assign hm _ _)⟩
  estimate o := o.1
  marginalizeLeaves o _ := .ok o

/-- Poses 0 to 4, a prior, three between factors, a landmark 7 tracked at keys 1 and 2. -/
def demoIsam : List (IOp Nat Nat) :=
  [.setMarginalisation true 2, .call .setExtrinsic, .call (.setCalibration (fun p d => p + d)),
   .call (.setPose 0 10), .call (.create .priorPose 0 1), .optimise 0,
   .call (.setPose 1 20), .call (.create .betweenPose 1 2), .call (.stereo 1 [(7, 5), (8, 6)]), .optimise 1,
   .call (.setPose 2 30), .call (.create .betweenPose 2 3), .call (.stereo 2 [(7, 4)]), .optimise 2,
   .call (.setPose 3 40), .call (.create .betweenPose 3 4), .optimise 3,
   .call (.setPose 4 50)]

/-- The end of the demonstration history. -/
def demoIsamEnd : Option (ILog Nat Nat × RIsam Nat Nat { m : OMap Key Nat // m.Sorted }) :=
  irun .nodeCount demoApi demoIsam ([], { opt := (⟨[], OMap.sorted_nil⟩, []) })

/-- What optimise(4) at the end of the demonstration history does: keys, variables handed over, variables marginalised,
values. -/
def demoIsamStep : Option ((Int × Int) × (List Key × List Key) × List (Outcome Nat)) :=
  match demoIsamEnd with
  | some (_, s) =>
    match istep .nodeCount demoApi (.optimise 4) s with
    | some (.done, s') => some ((s'.optKey, s'.margKey), (handedVars s'.opt.2, margVars s'.opt.2),
        [getVal s'.gm .X 4, getVal s'.gm .S 7])
    | _ => none
  | none => none

example : demoIsamStep = some ((4, 2), ([keyOf .X 0, keyOf .X 1, keyOf .S 7, keyOf .X 2, keyOf .X 3, keyOf .X 4],
    [keyOf .X 0, keyOf .X 1, keyOf .X 2]), [.ok 150, .ok 134]) := by decide +kernel

/-- Executable form of `AllOptimised`. -/
def allOptimisedB (log : ILog Val D) : Bool :=
  log.all fun e => match e with
    | (.optimise _, .done) => true
    | (.optimise _, _) => false
    | _ => true

theorem allOptimised_of_b {log : ILog Val D} (h : allOptimisedB log = true) : AllOptimised log := by
  intro k r hm
  have := List.all_eq_true.1 h _ hm
  cases r <;> simp_all

/-- Executable form of `Sliding`. -/
def slidingB (w : Nat) (log : ILog Val D) : Bool :=
  (log.all fun e => match e.1 with
    | .setMarginalisation b w' => b && decide (w' = w)
    | .marginalise _ => false
    | _ => true) &&
  decide ((log.filterMap fun e => match e.1 with | .optimise k => some k | _ => none).Pairwise (· ≤ ·))

theorem sliding_of_b {w : Nat} {log : ILog Val D} (h : slidingB w log = true) : Sliding w log := by
  simp only [slidingB, Bool.and_eq_true] at h
  obtain ⟨h1, h2⟩ := h
  refine ⟨?_, ?_, ?_⟩
  · intro b w' r hm
    have := List.all_eq_true.1 h1 _ hm
    simpa using this
  · intro k r hm
    have := List.all_eq_true.1 h1 _ hm
    simp at this
  · have h2 := of_decide_eq_true h2
    rw [List.pairwise_filterMap] at h2
    refine h2.imp ?_
    intro a b hab k k' ha hb
    exact hab k (by rw [ha]) k' (by rw [hb])

/-- Executable form of `Disciplined`. -/
def disciplinedB (log : ILog Val D) : Bool :=
  (List.range log.length).all fun i => match log[i]? with
    | some (.optimise k, _) =>
      (created (calls (log.take i)).reverse).all fun e => decide (k < e.1) || e.2.vars.all fun raw =>
        [Fam.X, .V, .B, .P].all fun c => decide (raw / 2 ^ 56 ≠ c.chr) || (calls (log.take i)).any fun x =>
          match x with
          | (op, .done) => sets c ((raw % 2 ^ 56 : Nat) : Int) op
          | _ => false
    | _ => true

theorem disciplined_of_b {log : ILog Val D} (h : disciplinedB log = true) : Disciplined log := by
  intro pre k r post e x hx hk c j hc h0 hj hin
  subst e
  have h := List.all_eq_true.1 h pre.length (by simp)
  have e1 : (pre ++ (IOp.optimise k, r) :: post)[pre.length]? = some (IOp.optimise k, r) := by simp
  have e2 : (pre ++ (IOp.optimise k, r) :: post).take pre.length = pre := by simp
  rw [e1, e2] at h
  have h := List.all_eq_true.1 h x hx
  simp only [Bool.or_eq_true, decide_eq_true_eq] at h
  rcases h with h | h
  · omega
  · have h := List.all_eq_true.1 h _ hin
    have h := List.all_eq_true.1 h c (by cases c <;> simp_all)
    have hlt : j.toNat < 2 ^ 56 := by omega
    have d1 : keyOf c j / 2 ^ 56 = c.chr := by
      unfold keyOf
      rw [Nat.add_comm, Nat.add_mul_div_right _ _ (by decide), Nat.div_eq_of_lt hlt, Nat.zero_add]
    have d2 : keyOf c j % 2 ^ 56 = j.toNat := by
      unfold keyOf
      rw [Nat.add_comm, Nat.add_mul_mod_self_right, Nat.mod_eq_of_lt hlt]
    rw [d1, d2] at h
    simp only [ne_eq, not_true_eq_false, decide_false, Bool.false_or] at h
    obtain ⟨⟨op, r'⟩, hm, hs⟩ := List.any_eq_true.1 h
    have e3 : ((j.toNat : Nat) : Int) = j := by omega
    rw [e3] at hs
    cases r' <;> simp at hs
    exact ⟨op, hm, hs⟩

/-- Marginalisation with window `w` is switched on at some point of the log. -/
def enabledB (w : Nat) (log : ILog Val D) : Bool :=
  log.any fun e => match e.1 with | .setMarginalisation b w' => b && decide (w' = w) | _ => false

theorem enabled_of_b {w : Nat} {log : ILog Val D} (h : enabledB w log = true) :
    ∃ r, (IOp.setMarginalisation true w, r) ∈ log := by
  obtain ⟨⟨op, r⟩, hm, h⟩ := List.any_eq_true.1 h
  cases op <;> simp at h
  obtain ⟨rfl, rfl⟩ := h
  exact ⟨r, hm⟩

/-- The call succeeds. -/
def doneB (r : Option (Resp Val D × RIsam Val D O)) : Bool :=
  match r with | some (.done, _) => true | _ => false

theorem done_of_b {r : Option (Resp Val D × RIsam Val D O)} (h : doneB r = true) : ∃ s', r = some (.done, s') := by
  unfold doneB at h
  split at h
  · exact ⟨_, rfl⟩
  · simp at h

theorem demoIsam_runs :
    (irun .nodeCount demoApi demoIsam ([], { opt := (⟨[], OMap.sorted_nil⟩, []) })).isSome = true := by decide +kernel

/-- Log of the demonstration history. -/
def demoIsamLog : ILog Nat Nat := (Option.get _ demoIsam_runs).1

/-- State after the demonstration history. -/
def demoIsamState : RIsam Nat Nat { m : OMap Key Nat // m.Sorted } := (Option.get _ demoIsam_runs).2

theorem demoIsam_reaches : IReaches .nodeCount demoApi ⟨[], OMap.sorted_nil⟩ demoIsamLog demoIsamState :=
  ireaches_get demoIsam_runs

attribute [irreducible] demoIsamLog demoIsamState

/-- The hypotheses of C14, C15 and C16 are met together by the demonstration history. -/
example : ∃ log s s', IReaches .nodeCount demoApi ⟨[], OMap.sorted_nil⟩ log s ∧ (∀ o, (demoApi.estimate o).Sorted) ∧
    AllOptimised log ∧ StereoOk (calls log).reverse ∧ Disciplined log ∧ Sliding 2 (log ++ [(.optimise 4, .done)]) ∧
    (∃ r, (IOp.setMarginalisation true 2, r) ∈ log) ∧
    istep .nodeCount demoApi (.optimise 4) s = some (.done, s') ∧
    (s.marginalisation = true ∧ s.margKey ≤ 4 - s.window) ∧
    (handedFactors s.opt.2).length = 6 ∧ handedVars s.opt.2 ≠ [] := by
  obtain ⟨s', h3⟩ := done_of_b (r := istep .nodeCount demoApi (.optimise 4) demoIsamState) (by decide +kernel)
  have h5 : stereoOkB (calls demoIsamLog).reverse = true := by decide +kernel
  have h4 := stereoOk_of_b h5
  refine ⟨demoIsamLog, demoIsamState, s', demoIsam_reaches, fun o => o.2, ?_, h4, ?_, ?_, ?_, h3, ?_, ?_, ?_⟩
  · apply allOptimised_of_b; decide +kernel
  · apply disciplined_of_b; decide +kernel
  · apply sliding_of_b; decide +kernel
  · apply enabled_of_b; decide +kernel
  · decide +kernel
  · decide +kernel
  · decide +kernel

/-- An explicit marginalisation ahead of the optimised key. -/
example : ∃ log s, IReaches .nodeCount demoApi ⟨[], OMap.sorted_nil⟩ log s ∧ s.optKey = 3 ∧ s.optKey < 4 := by
  exact ⟨_, _, ireaches_get demoIsam_runs, by decide +kernel, by decide +kernel⟩

/-- A landmark with id 0 that is first tracked at key 4. -/
def demoLandmark : List (IOp Nat Nat) :=
  [.setMarginalisation true 2, .call .setExtrinsic, .call (.setCalibration (fun p d => p + d)),
   .call (.setPose 0 10), .call (.setPose 1 20), .call (.setPose 2 30), .call (.setPose 3 40), .call (.setPose 4 50),
   .call (.stereo 3 [(0, 5)]), .call (.stereo 4 [(0, 4)]), .optimise 4]

theorem demoLandmark_runs :
    (irun .nodeCount demoApi demoLandmark ([], { opt := (⟨[], OMap.sorted_nil⟩, []) })).isSome = true := by decide +kernel

/-- C16 is violated by landmarks: with window 2, a landmark first tracked at key 4 is marginalised by `optimise(4)`,
because it is filed under its id (0) and not under the key of the frame. -/
theorem C16_fails_landmark : ∃ log s, IReaches .nodeCount demoApi ⟨[], OMap.sorted_nil⟩ log s ∧ Sliding 2 log ∧
    AllOptimised log ∧ s.optKey = 4 ∧ tracks (frames (calls log).reverse) = [(4, 0)] ∧
    keyOf .S 0 ∈ margVars s.opt.2 := by
  exact ⟨_, _, ireaches_get demoLandmark_runs, sliding_of_b (by decide +kernel), allOptimised_of_b (by decide +kernel),
    by decide +kernel, by decide +kernel, by decide +kernel⟩

/-- The landmark of the demonstration history (id 7) is first tracked at key 2. -/
def demoLandmark2 : List (IOp Nat Nat) := demoIsam ++ [.optimise 4, .call (.setPose 5 60), .optimise 5]

theorem demoLandmark2_runs :
    (irun .nodeCount demoApi demoLandmark2 ([], { opt := (⟨[], OMap.sorted_nil⟩, []) })).isSome = true := by decide +kernel

/-- C16 is violated by landmarks the other way round too: the landmark 7, first tracked at key 2, is not marginalised
by `optimise(5)` with window 2. -/
theorem C16_fails_landmark_kept : ∃ log s, IReaches .nodeCount demoApi ⟨[], OMap.sorted_nil⟩ log s ∧ Sliding 2 log ∧
    AllOptimised log ∧ s.optKey = 5 ∧ s.margKey = 3 ∧ tracks (frames (calls log).reverse) = [(2, 7)] ∧
    keyOf .S 7 ∉ margVars s.opt.2 := by
  exact ⟨_, _, ireaches_get demoLandmark2_runs, sliding_of_b (by decide +kernel), allOptimised_of_b (by decide +kernel),
    by decide +kernel, by decide +kernel, by decide +kernel, by decide +kernel⟩

end Graph

end Serpent
