import Verif.Props.MarginalisedKnown

/-!
# The sliding window of the running back end (C158)
-/

namespace Serpent

namespace Graph

open M

variable {Val D O : Type}

/-- What the optimiser has been given of the family `c` after the keys `0, …, k` have been optimised with the window `w`. From
the key `k0` on all the variables up to the key are there. -/
structure FamWindow (c : Fam) (k0 : Int) (w : Nat) (k : Int) (s : RIsam Val D O) : Prop where
  key : s.optKey = k
  marg : s.margKey = max (-1) (k - w)
  handedLe : ∀ j, 0 ≤ j → j < 2 ^ 56 → keyOf c j ∈ handedVars s.opt.2 → j ≤ k
  handedAll : k0 ≤ k → ∀ j, 0 ≤ j → j < 2 ^ 56 → j ≤ k → keyOf c j ∈ handedVars s.opt.2
  givenLe : ∀ j, 0 ≤ j → j < 2 ^ 56 → keyOf c j ∈ margVars s.opt.2 → j ≤ k - w
  givenAll : k0 ≤ k → ∀ j, 0 ≤ j → j < 2 ^ 56 → j ≤ k - w → keyOf c j ∈ margVars s.opt.2

theorem margAccepted_of {log : List (IOp Val D × Resp Val D)} (h : ∀ k r, (IOp.marginalise k, r) ∉ log) : MargAccepted log := by
  induction log with
  | nil => trivial
  | cons x log ih =>
    obtain ⟨op, r⟩ := x
    have ih := ih fun k r hm => h k r (List.mem_cons_of_mem _ hm)
    cases op with
    | marginalise k => exact absurd List.mem_cons_self (h k r)
    | _ => exact ih

/-- A history in which the keys `0, …, n - 1` were optimised, with the window `w` on and, from `k0` on, with
the variables of the family up to the key. -/
theorem famWindow {er : EndRead} {api : OptApi Val D O} {o : O} {log : ILog Val D} {s : RIsam Val D O} {w n : Nat}
    {c : Fam} {k0 : Int} (hc : c ≠ .S) (h : IReaches er api o log s) (hest : ∀ o, (api.estimate o).Sorted) (ha : AllOptimised log)
    (hok : StereoOk (calls log).reverse) (hno : ∀ k r, (IOp.marginalise k, r) ∉ log)
    (hord : BackEnd.optKeys log = (List.range n).map Int.ofNat)
    (hst : ∀ pre k r post st, log = pre ++ (IOp.optimise k, r) :: post → IReaches er api o pre st →
      (st.marginalisation = true ∧ st.window = w) ∧ (k0 ≤ k → ∀ j, 0 ≤ j → j < 2 ^ 56 → j ≤ k → st.gm.values.contains (keyOf c j) = true)) :
    FamWindow c k0 w ((n : Int) - 1) s := by
  induction h generalizing n with
  | init =>
    have : n = 0 := by
      have := congrArg List.length hord
      simpa [BackEnd.optKeys] using this.symm
    subst this
    refine ⟨rfl, ?_, fun j h0 _ h => ?_, fun _ j h0 _ h => ?_, fun j h0 _ h => ?_, fun _ j h0 _ h => ?_⟩
    · show (-1 : Int) = _
      have : ((0 : Nat) : Int) - 1 - w ≤ -1 := by omega
      omega
    · simp [handedVars] at h
    · omega
    · simp [margVars] at h
    · omega
  | @step log s s' op r hr hs ih =>
    have hok' : StereoOk (calls log).reverse := by
      rw [calls_append, List.reverse_append] at hok
      cases op with
      | call op =>
        simp only [calls, List.reverse_singleton, List.singleton_append] at hok
        cases op <;> simp only [StereoOk] at hok <;> first | exact hok | exact hok.2.2.2
      | _ => simpa [calls] using hok
    have ih := fun {n : Nat} => ih (n := n) (allOptimised_left ha) hok' (fun k r hm => hno k r (List.mem_append_left _ hm))
    have hst' : ∀ pre k r' post st, log = pre ++ (IOp.optimise k, r') :: post → IReaches er api o pre st →
        (st.marginalisation = true ∧ st.window = w) ∧ (k0 ≤ k → ∀ j, 0 ≤ j → j < 2 ^ 56 → j ≤ k → st.gm.values.contains (keyOf c j) = true) :=
      fun pre k r' post st e => hst pre k r' (post ++ [(op, r)]) st (by rw [e]; simp)
    obtain ⟨glog, hl⟩ := link_exists hr
    rw [BackEnd.optKeys_append] at hord
    cases op with
    | call op =>
      have ih := ih (n := n) (by simpa [BackEnd.optKeys] using hord) hst'
      simp only [istep] at hs
      split at hs
      · split at hs
        · simp at hs
          rw [← hs.2]
          exact ⟨ih.key, ih.marg, ih.handedLe, ih.handedAll, ih.givenLe, ih.givenAll⟩
        · simp at hs
      · simp at hs
    | setMarginalisation b v =>
      have ih := ih (n := n) (by simpa [BackEnd.optKeys] using hord) hst'
      simp only [istep, setMarginalisation, modify_run, irespOf] at hs
      cases b <;> simp at hs <;> rw [← hs.2] <;> exact ⟨ih.key, ih.marg, ih.handedLe, ih.handedAll, ih.givenLe, ih.givenAll⟩
    | marginalise k => exact absurd (List.mem_append_right _ List.mem_cons_self) (hno k r)
    | optimise k =>
      obtain ⟨m, rfl⟩ : ∃ m, n = m + 1 := by
        cases n with
        | zero => simp [BackEnd.optKeys] at hord
        | succ m => exact ⟨m, rfl⟩
      rw [List.range_succ, List.map_append] at hord
      obtain ⟨e1, e2⟩ := List.append_inj' hord rfl
      simp only [BackEnd.optKeys, List.map_cons, List.map_nil, List.cons.injEq, and_true] at e2
      have ih := ih (n := m) e1 hst'
      obtain ⟨⟨hm1, hm2⟩, hval⟩ := hst log k r [] s rfl hr
      have hk : k = m := e2
      have hdone := allOptimised_last ha
      subst hdone
      have hmk := ih.marg
      -- the variables handed over
      have hand : ∀ {fs : List (Factor D)} {g1 g2 : GM Val D} {vs : OMap Key Val},
          step er (.extractFactors k) s.gm = some (.factors fs, g1) →
          step er (.extractValues k) g1 = some (.values vs, g2) →
          ∀ j, 0 ≤ j → j < 2 ^ 56 → (keyOf c j ∈ handedVars s.opt.2 ++ vs.map Prod.fst → j ≤ k) ∧
            (k0 ≤ k → j ≤ k → keyOf c j ∈ handedVars s.opt.2 ++ vs.map Prod.fst) := by
        intro fs g1 g2 vs h1 h2 j h0 hj
        obtain ⟨hx, hv, _⟩ := hl.all (allOptimised_left ha)
        have hlog : (glog ++ [(Op.extractFactors k, Resp.factors fs)]).reverse =
            (Op.extractFactors k, Resp.factors fs) :: glog.reverse := by simp
        have hx1 : ExtractOk (glog ++ [(Op.extractFactors k, Resp.factors fs)]).reverse := by
          rw [hlog]
          intro m r hm
          rcases List.mem_cons.1 hm with e | hm
          · simp at e
          · exact hx m r hm
        obtain ⟨hstate, -⟩ := C08_extraction (hl.reaches.step h1) (by rw [hlog]; exact hl.stereo hok') hx1 h2
        have hek : extractedKeys (glog ++ [(Op.extractFactors k, Resp.factors fs)]).reverse = handedVars s.opt.2 := by
          rw [hlog, hv]; rfl
        rw [hek] at hstate
        have eg : g1.values = s.gm.values := by rw [step_state h1]; rfl
        rw [List.mem_append]
        constructor
        · rintro (h | h)
          · have := ih.handedLe j h0 hj h
            omega
          · obtain ⟨e, he, hj'⟩ := List.mem_map.1 h
            have hsort : vs.Sorted := by
              rcases step_extract h2 with ⟨h3, _⟩ | ⟨vs', h3, hxx⟩
              · simp at h3
              · injection h3 with h3
                subst h3
                exact (extractNewValues_ok (reaches_vinv (hl.reaches.step h1)) (reaches_linv (hl.reaches.step h1)).newIds hxx).2.1
            have := OMap.find_of_mem hsort he
            rw [hj'] at this
            exact ((hstate c j _ hc h0 hj).1 this).1
        · intro hk' hle
          by_cases hb : keyOf c j ∈ handedVars s.opt.2
          · exact .inl hb
          · right
            obtain ⟨v, hv⟩ := contains_iff.1 (hval hk' j h0 hj hle)
            have := (hstate c j v hc h0 hj).2 ⟨hle, hb, by
              rw [← eg] at hv
              exact (getVal_iff h0 hj).2 hv⟩
            exact List.mem_map.2 ⟨_, OMap.mem_of_find this, rfl⟩
      have hkm : ((m + 1 : Nat) : Int) - 1 = k := by rw [hk]; omega
      rw [hkm]
      by_cases ht : s.marginalisation = true ∧ s.margKey ≤ k - s.window
      · obtain ⟨hmk', fs', vs', ks', he, -, hks⟩ := C16_window_step_partial hr hest (allOptimised_left ha)
          (margAccepted_of fun k r hm => hno k r (List.mem_append_left _ (List.mem_reverse.1 hm))) hs ht
        obtain ⟨seg, ev, hrun⟩ := optRun_of_step hs
        cases hrun with
        | plain h1 h2 h3 h4 h5 => exact absurd ht h5
        | @marg fs g1 vs g2 o1 g3 ks g4 o2 h1 h2 h3 h4 h5 h6 h7 =>
          have he' := List.append_cancel_left he
          simp only [List.cons.injEq, Event.update.injEq, Event.marginalize.injEq, and_true] at he'
          obtain ⟨-, rfl⟩ := he'
          rw [hm2] at hks h5
          refine ⟨rfl, ?_, fun j h0 hj h => ?_, fun hk' j h0 hj h => ?_, fun j h0 hj h => ?_, fun hk' j h0 hj hle => ?_⟩
          · show k - (s.window : Int) = _
            rw [hm2]
            have := h5.2
            omega
          · simp only [handedVars_append, handedVars, List.append_nil] at h
            exact (hand h1 h2 j h0 hj).1 h
          · simp only [handedVars_append, handedVars, List.append_nil]
            exact (hand h1 h2 j h0 hj).2 hk' h
          · simp only [margVars_append, margVars, List.append_nil, List.mem_append] at h
            rw [hks] at h
            rcases h with h | ⟨-, c', j', a, b, e, hle, -⟩
            · have := ih.givenLe j h0 hj h
              omega
            · have := (sym_inj (keyOf_eq h0 hj) (by rw [e]; exact keyOf_eq a b)).2
              omega
          · simp only [margVars_append, margVars, List.append_nil, List.mem_append]
            rw [hks]
            by_cases hb : keyOf c j ∈ margVars s.opt.2
            · exact .inl hb
            · right
              refine ⟨hb, c, j, h0, hj, rfl, hle, ?_⟩
              obtain ⟨v, hv⟩ := contains_iff.1 (hval hk' j h0 hj (by omega))
              exact ⟨v, (getVal_iff h0 hj).2 hv⟩
      · obtain ⟨seg, ev, hrun⟩ := optRun_of_step hs
        cases hrun with
        | @plain fs g1 vs g2 o1 g3 h1 h2 h3 h4 h5 =>
          have hlow : k - (w : Int) < -1 := by
            rw [hm2] at ht
            have : ¬ s.margKey ≤ k - (w : Int) := fun h => ht ⟨hm1, h⟩
            omega
          refine ⟨rfl, ?_, fun j h0 hj h => ?_, fun hk' j h0 hj h => ?_, fun j h0 hj h => ?_, fun hk' j h0 hj hle => ?_⟩
          · show s.margKey = _
            omega
          · simp only [handedVars_append, handedVars, List.append_nil] at h
            exact (hand h1 h2 j h0 hj).1 h
          · simp only [handedVars_append, handedVars, List.append_nil]
            exact (hand h1 h2 j h0 hj).2 hk' h
          · simp only [margVars_append, margVars, List.append_nil] at h
            have := ih.givenLe j h0 hj h
            omega
          · omega
        | marg h1 h2 h3 h4 h5 => exact absurd h5 ht

theorem stereoOk_right {a b : List (Op Val D × Resp Val D)} (h : StereoOk (a ++ b)) : StereoOk b := by
  induction a with
  | nil => exact h
  | cons x a ih =>
    obtain ⟨op, r⟩ := x
    apply ih
    cases op <;> simp only [List.cons_append, StereoOk] at h <;> first | exact h | exact h.2.2.2

/-- A plain factor is on the variables its kind asks for. -/
theorem plain_vars {log : List (Op Val D × Resp Val D)} {e : Int × Factor D} {q : PlainKind} (h : e ∈ created log)
    (hk : e.2.kind = .plain q) : e.2.vars = specVars q e.1 := by
  induction log with
  | nil => simp [created] at h
  | cons x log ih =>
    unfold created at h
    split at h
    · simp at *
    · rename_i heq
      simp only [List.cons.injEq] at heq
      obtain ⟨-, rfl⟩ := heq
      rcases List.mem_append.1 h with h | h
      · exact ih h
      · simp at h
        subst h
        simp at hk
        rw [hk]
    · rename_i heq
      simp only [List.cons.injEq] at heq
      obtain ⟨-, rfl⟩ := heq
      rcases List.mem_append.1 h with h | h
      · exact ih h
      · obtain ⟨f, hf, rfl⟩ := List.mem_map.1 h
        exfalso
        cases hfr : frames log with
        | nil => simp [hfr, frameFactors] at hf
        | cons a older =>
          simp only [hfr, frameFactors, stereoFactors, List.mem_flatMap] at hf
          obtain ⟨x, -, hx⟩ := hf
          split at hx
          · simp at hx
          · rcases List.mem_append.1 hx with hx | hx
            · split at hx
              · simp at hx
                subst hx
                simp at hk
              · simp at hx
            · simp at hx
              subst hx
              simp at hk
    · rename_i heq
      simp only [List.cons.injEq] at heq
      obtain ⟨-, rfl⟩ := heq
      exact ih h

/-- Without marginalisation nothing is given for marginalisation. -/
theorem noWindow {er : EndRead} {api : OptApi Val D O} {o : O} {log : ILog Val D} {s : RIsam Val D O}
    (h : IReaches er api o log s) (hno : ∀ k r, (IOp.marginalise k, r) ∉ log)
    (hst : ∀ pre k r post st, log = pre ++ (IOp.optimise k, r) :: post → IReaches er api o pre st → st.marginalisation = false) :
    margVars s.opt.2 = [] := by
  induction h with
  | init => rfl
  | @step log s s' op r hr hs ih =>
    have ih := ih (fun k r hm => hno k r (List.mem_append_left _ hm))
      fun pre k r' post st e => hst pre k r' (post ++ [(op, r)]) st (by rw [e]; simp)
    cases op with
    | call op =>
      simp only [istep] at hs
      split at hs
      · split at hs
        · simp at hs
          rw [← hs.2]
          exact ih
        · simp at hs
      · simp at hs
    | setMarginalisation b v =>
      simp only [istep, setMarginalisation, modify_run, irespOf] at hs
      cases b <;> simp at hs <;> rw [← hs.2] <;> exact ih
    | marginalise k => exact absurd (List.mem_append_right _ List.mem_cons_self) (hno k r)
    | optimise k =>
      have hf := hst log k r [] s rfl hr
      obtain ⟨seg, ev, hrun⟩ := optRun_of_step hs
      cases hrun with
      | extractThrew => exact ih
      | updateThrew => exact ih
      | feedbackThrew => simp only [margVars_append, ih, margVars, List.append_nil]
      | plain => simp only [margVars_append, ih, margVars, List.append_nil]
      | margThrew _ _ _ _ h5 => rw [hf] at h5; simp at h5
      | marg _ _ _ _ h5 => rw [hf] at h5; simp at h5

end Graph

namespace BackEnd

open Graph M

variable {Val D O C I : Type}

/-- The states of the running back end have the velocities and IMU biases of the keys that IMU factors lead to. -/
theorem imu_values {er : EndRead} {opt : OptApi Val D O} {o : O} {pre : ILog Val D} {st : RIsam Val D O}
    (hst : IReaches er opt o pre st) (hok : StereoOk (calls pre).reverse)
    (hv : ∀ f ∈ allFactors st.gm, ∀ raw ∈ f.vars, ∃ v, st.gm.values.find raw = some v) {c : Fam} (hc : c = .V ∨ c = .B) {i j : Int}
    (hi : HasFactor st.gm .combinedImu i) (hj : j = i - 1 ∨ j = i) :
    st.gm.values.contains (keyOf c j) = true := by
  obtain ⟨glog, hl⟩ := link_exists hst
  obtain ⟨f, hf, hk⟩ := hi
  have hfa := (factors_invariant hl.reaches (hl.stereo hok)).factors i
  have hm : f ∈ lookup st.gm.factors i := hf
  have hall : f ∈ allFactors st.gm := by
    rw [lookup] at hm
    cases hfi : st.gm.factors.find i with
    | none => simp [hfi] at hm
    | some fs => exact List.mem_flatMap.2 ⟨_, OMap.mem_of_find hfi, by simpa [hfi] using hm⟩
  rw [hfa] at hm
  obtain ⟨e, he, rfl⟩ := List.mem_map.1 hm
  obtain ⟨he, hei⟩ := List.mem_filter.1 he
  have hvars := plain_vars he hk
  have : keyOf c j ∈ e.2.vars := by
    rw [hvars]
    have : e.1 = i := by simpa using hei
    rw [this]
    rcases hc with rfl | rfl <;> rcases hj with rfl | rfl <;> simp [specVars]
  exact contains_iff.2 (hv _ hall _ this)

/-- All optimised states together: the window over the family `c`. -/
theorem window_of {er : EndRead} {api : Api Val D O C I} {cfg : Cfg} {o : O} {s : Sys Val D (O × List (Event Val D))} {w : Int}
    (hest : ∀ o, (api.opt.estimate o).Sorted) (h : NodeReach er (recorded api) cfg (o, []) s) (hw : cfg.marginalisation = some w)
    {c : Fam} {k0 : Int} (hc : c ≠ .S)
    (hval : ∀ pre st k, IReaches er api.opt o pre st → StereoOk (calls pre).reverse → (k, st.gm) ∈ s.be.calls → k0 ≤ k →
      ∀ j, 0 ≤ j → j < 2 ^ 56 → j ≤ k → st.gm.values.contains (keyOf c j) = true) :
    FamWindow c k0 w.toNat s.be.isam.optKey s.be.isam ∧ -1 ≤ s.be.isam.optKey ∧ (w.toNat : Int) = w := by
  obtain ⟨log, hl⟩ := hist_reach (api := recorded api) (opt := api.opt) rfl h
  obtain ⟨n, hn⟩ := nodeSeen_good (.reach h)
  have hf := hl.flag
  simp only [Window, hw] at hf
  have hp := famWindow (w := s.be.isam.window) (n := (n + 1).toNat) hc hl.reach hest (fun k r hm => hl.done _ hm) hl.stereo
    hl.auto (by rw [hl.order, hn.order]) fun pre k r post st e hst => by
      obtain ⟨st', h1, h2, -, h4⟩ := hl.seen pre k r post e
      have := ireaches_unique hst h1
      subst this
      simp only [Window, hw] at h4
      refine ⟨⟨h4.1, by have := hf.2; omega⟩, hval pre st k hst ?_ h2⟩
      have := hl.stereo
      rw [e, calls_append, List.reverse_append] at this
      exact stereoOk_right this
  have hwe : s.be.isam.window = w.toNat := by have := hf.2; omega
  rw [hp.key]
  rw [hwe] at hp
  exact ⟨hp, by omega, by have := hf.2; omega⟩

/-- **C158.** After every callback of a back end with the window `w`: the poses handed to the optimiser are those of the keys
`0, …, k`, where `k` is the key optimised last, and the poses given to it for marginalisation are those of the keys `0, …, k - w`. -/
theorem C158_window {er : EndRead} {api : Api Val D O C I} {cfg : Cfg} {o : O} {s : Sys Val D (O × List (Event Val D))} {w : Int}
    (hest : ∀ o, (api.opt.estimate o).Sorted) (h : NodeReach er (recorded api) cfg (o, []) s) (hw : cfg.marginalisation = some w) :
    (∀ j, 0 ≤ j → j < 2 ^ 56 → (keyOf .X j ∈ handedVars (accepted s) ↔ j ≤ s.be.isam.optKey)) ∧
    (∀ j, 0 ≤ j → j < 2 ^ 56 → (keyOf .X j ∈ margVars (accepted s) ↔ j ≤ s.be.isam.optKey - w)) ∧
    s.be.isam.margKey = max (-1) (s.be.isam.optKey - w) := by
  obtain ⟨n, hn⟩ := nodeSeen_good (.reach h)
  obtain ⟨hp, hk, hwe⟩ := window_of (c := .X) (k0 := -1) hest h hw (by simp)
    fun pre st k _ _ hm _ j h0 hj hle => by
      obtain ⟨raw, e, hc⟩ := hasVal_ok (hn.poses _ hm j h0 hle)
      rw [keyOf_eq h0 hj] at e
      cases e
      exact hc
  rw [← hwe]
  exact ⟨fun j h0 hj => ⟨hp.handedLe j h0 hj, hp.handedAll hk j h0 hj⟩, fun j h0 hj => ⟨hp.givenLe j h0 hj, hp.givenAll hk j h0 hj⟩, hp.marg⟩

/-- **C158.** With the IMU on, the same holds of the velocities and the IMU biases once the key 1 has been optimised. -/
theorem C158_imu {er : EndRead} {api : Api Val D O C I} {cfg : Cfg} {o : O} {s : Sys Val D (O × List (Event Val D))} {w : Int}
    (hest : ∀ o, (api.opt.estimate o).Sorted) (h : NodeReach er (recorded api) cfg (o, []) s) (hw : cfg.marginalisation = some w)
    (hi : cfg.imu = true) (hk : 1 ≤ s.be.isam.optKey) {c : Fam} (hc : c = .V ∨ c = .B) :
    (∀ j, 0 ≤ j → j < 2 ^ 56 → (keyOf c j ∈ handedVars (accepted s) ↔ j ≤ s.be.isam.optKey)) ∧
    (∀ j, 0 ≤ j → j < 2 ^ 56 → (keyOf c j ∈ margVars (accepted s) ↔ j ≤ s.be.isam.optKey - w)) := by
  obtain ⟨n, hn⟩ := nodeSeen_good (.reach h)
  obtain ⟨hp, -, hwe⟩ := window_of (c := c) (k0 := 1) hest h hw (by rcases hc with rfl | rfl <;> simp)
    fun pre st k hr hok hm hk j h0 hj' hle => by
      have hv := C155_calls (.reach h) k st.gm hm
      by_cases hj : j = 0
      · exact imu_values hr hok hv hc (i := 1) (hn.imu hi _ hm 1 le_rfl hk) (.inl (by omega))
      · exact imu_values hr hok hv hc (hn.imu hi _ hm j (by omega) hle) (.inr rfl)
  rw [← hwe]
  exact ⟨fun j h0 hj => ⟨hp.handedLe j h0 hj, hp.handedAll hk j h0 hj⟩, fun j h0 hj => ⟨hp.givenLe j h0 hj, hp.givenAll hk j h0 hj⟩⟩

/-- **C158.** The optimiser has exactly the poses of the last `w` keys, … -/
theorem C158_held {er : EndRead} {api : Api Val D O C I} {cfg : Cfg} {o : O} {s : Sys Val D (O × List (Event Val D))} {w : Int}
    (hest : ∀ o, (api.opt.estimate o).Sorted) (h : NodeReach er (recorded api) cfg (o, []) s) (hw : cfg.marginalisation = some w)
    (j : Int) (h0 : 0 ≤ j) (hj : j < 2 ^ 56) :
    (keyOf .X j ∈ handedVars (accepted s) ∧ keyOf .X j ∉ margVars (accepted s)) ↔ s.be.isam.optKey - w < j ∧ j ≤ s.be.isam.optKey := by
  obtain ⟨h1, h2, -⟩ := C158_window hest h hw
  rw [h1 j h0 hj, h2 j h0 hj]
  omega

/-- **C158.** … with the IMU on exactly their velocities and IMU biases, … -/
theorem C158_imu_held {er : EndRead} {api : Api Val D O C I} {cfg : Cfg} {o : O} {s : Sys Val D (O × List (Event Val D))} {w : Int}
    (hest : ∀ o, (api.opt.estimate o).Sorted) (h : NodeReach er (recorded api) cfg (o, []) s) (hw : cfg.marginalisation = some w)
    (hi : cfg.imu = true) (hk : 1 ≤ s.be.isam.optKey) {c : Fam} (hc : c = .V ∨ c = .B) (j : Int) (h0 : 0 ≤ j) (hj : j < 2 ^ 56) :
    (keyOf c j ∈ handedVars (accepted s) ∧ keyOf c j ∉ margVars (accepted s)) ↔ s.be.isam.optKey - w < j ∧ j ≤ s.be.isam.optKey := by
  obtain ⟨h1, h2⟩ := C158_imu hest h hw hi hk hc
  rw [h1 j h0 hj, h2 j h0 hj]
  omega

/-- **C158.** … so never more than `w` of them. -/
theorem C158_bound {er : EndRead} {api : Api Val D O C I} {cfg : Cfg} {o : O} {s : Sys Val D (O × List (Event Val D))} {w : Int}
    (hest : ∀ o, (api.opt.estimate o).Sorted) (h : NodeReach er (recorded api) cfg (o, []) s) (hw : cfg.marginalisation = some w)
    (l : List Int) (hl : l.Nodup)
    (hm : ∀ j ∈ l, (0 ≤ j ∧ j < 2 ^ 56) ∧ keyOf .X j ∈ handedVars (accepted s) ∧ keyOf .X j ∉ margVars (accepted s)) :
    l.length ≤ w.toNat := by
  have hsub : l ⊆ (List.range w.toNat).map fun i : Nat => s.be.isam.optKey - (i : Int) := by
    intro j hj
    obtain ⟨⟨h0, h1⟩, h2⟩ := hm j hj
    have := (C158_held hest h hw j h0 h1).1 h2
    refine List.mem_map.2 ⟨(s.be.isam.optKey - j).toNat, List.mem_range.2 (by omega), ?_⟩
    omega
  have := (hl.subperm hsub).length_le
  simpa using this

/-- **C158.** Without marginalisation the optimiser keeps everything. -/
theorem C158_off {er : EndRead} {api : Api Val D O C I} {cfg : Cfg} {o : O} {s : Sys Val D (O × List (Event Val D))}
    (h : NodeReach er (recorded api) cfg (o, []) s) (hw : cfg.marginalisation = none) : margVars (accepted s) = [] := by
  obtain ⟨log, hl⟩ := hist_reach (api := recorded api) (opt := api.opt) rfl h
  refine noWindow hl.reach hl.auto fun pre k r post st e hst => ?_
  obtain ⟨st', h1, -, -, h4⟩ := hl.seen pre k r post e
  have := ireaches_unique hst h1
  subst this
  simpa only [Window, hw] using h4

/-- In the run with a window of one key, the optimiser has the pose of key 2 only. -/
example : demoWindowState.be.isam.optKey = 2 ∧ ∀ j, 0 ≤ j → j < 2 ^ 56 →
    ((keyOf .X j ∈ handedVars (accepted demoWindowState) ∧ keyOf .X j ∉ margVars (accepted demoWindowState)) ↔ j = 2) := by
  have hk : demoWindowState.be.isam.optKey = 2 := by decide +kernel
  have h : ∀ o, (demoApi.opt.estimate o).Sorted := fun _ => List.Pairwise.nil
  refine ⟨hk, fun j h0 hj => ?_⟩
  rw [C158_held h demoWindow_reach rfl j h0 hj, hk]
  omega

/-- The same run has the IMU on: of the velocities and the biases too, the optimiser has those of key 2 only. -/
example {c : Fam} (hc : c = .V ∨ c = .B) : ∀ j, 0 ≤ j → j < 2 ^ 56 →
    ((keyOf c j ∈ handedVars (accepted demoWindowState) ∧ keyOf c j ∉ margVars (accepted demoWindowState)) ↔ j = 2) := by
  have hk : demoWindowState.be.isam.optKey = 2 := by decide +kernel
  have h : ∀ o, (demoApi.opt.estimate o).Sorted := fun _ => List.Pairwise.nil
  intro j h0 hj
  rw [C158_imu_held h demoWindow_reach rfl rfl (by omega) hc j h0 hj, hk]
  omega

end BackEnd

end Serpent
