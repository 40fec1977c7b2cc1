import Verif.Lemmas.Fed

/-!
# Histories of an `ISAM2GraphManager` as histories of its `GraphManager` part
-/

namespace Serpent

namespace Graph

open M

variable {Val D O : Type}

/-! ## Values are never removed -/

theorem keeps_has_set {raw : Key} (c : Fam) (k : Int) (v : Val) :
    Keeps (fun t : GM Val D => VInv t ∧ t.values.contains raw = true) (set c k v) := by
  intro t ht
  refine ⟨keeps_vinv_set _ _ _ _ ht.1, ?_⟩
  cases hk : sym c k with
  | ub => exact absurd hk (sym_ne_ub _ _)
  | throws => rw [set_throws t hk]; exact ht.2
  | ok raw' =>
    rw [set_ok ht.1 hk]
    simp only [setState, contains_assign ht.1.values, ht.2, Bool.or_true]

theorem keeps_has_update {raw : Key} (raw' : Key) (v : Val) :
    Keeps (fun t : GM Val D => VInv t ∧ t.values.contains raw = true) (update raw' v) := by
  intro t ht
  refine ⟨keeps_vinv_update _ _ _ ht.1, ?_⟩
  rw [update_run]
  split
  · simp only [updateState, contains_assign ht.1.values, ht.2, Bool.or_true]
  · exact ht.2

theorem step_has {er : EndRead} {op : Op Val D} {s s' : GM Val D} {r : Resp Val D} {raw : Key}
    (h : step er op s = some (r, s')) (hs : VInv s) (hc : s.values.contains raw = true) :
    s'.values.contains raw = true := by
  have hv : VInv s' := step_vinv h hs
  rw [step_state h]
  cases op with
  | setNamedKey n k p => simp only [stateAfter, setNamedKey, modify_run]; split <;> exact hc
  | increment n => simp only [stateAfter, increment]; split <;> exact hc
  | setPose k v => exact (keeps_has_set _ _ _ _ ⟨hs, hc⟩).2
  | setVelocity k v => exact (keeps_has_set _ _ _ _ ⟨hs, hc⟩).2
  | setImuBias k v => exact (keeps_has_set _ _ _ _ ⟨hs, hc⟩).2
  | setBarometerBias k v => exact (keeps_has_set _ _ _ _ ⟨hs, hc⟩).2
  | setNavstate k p v =>
    exact (Keeps.bind (m := set .X k p) (keeps_has_set _ _ _) (fun _ => keeps_has_set _ _ _) _ ⟨hs, hc⟩).2
  | setTimestamp k t => exact hc
  | create kind k d =>
    exact (keeps_createFactor (P := fun t => VInv t ∧ t.values.contains raw = true)
      (fun _ _ _ h => ⟨vinv_indep_factors _ _ _ h.1, h.2⟩) _ _ _ _ ⟨hs, hc⟩).2
  | stereo k fs =>
    exact (keeps_createStereo (P := fun t => VInv t ∧ t.values.contains raw = true) (fun _ _ => keeps_has_set _ _ _)
      (fun _ _ _ h => ⟨vinv_indep_factors _ _ _ h.1, h.2⟩)
      (fun _ _ _ _ h => ⟨vinv_indep_stereo _ _ _ _ h.1, h.2⟩) _ _ _ ⟨hs, hc⟩).2
  | setExtrinsic => exact hc
  | setCalibration bp => exact hc
  | updateFromValues vs =>
    exact (keeps_updateFromValues' (P := fun t => VInv t ∧ t.values.contains raw = true)
      (fun _ _ => keeps_has_update _ _) _ _ ⟨hs, hc⟩).2
  | extractFactors m => exact hc
  | extractValues m =>
    obtain ⟨n, l, e⟩ := extractNewValues_frame er m s
    simp only [stateAfter]; rw [e]; exact hc
  | extractKeys m => exact hc

theorem has_of_set {c : Fam} {k : Int} {v : Val} {t : GM Val D} (h : VInv t) (h0 : 0 ≤ k) (h1 : k < 2 ^ 56) :
    (set c k v t).2.values.contains (keyOf c k) = true := by
  rw [set_ok h (keyOf_eq h0 h1)]
  simp [setState, contains_assign h.values]

theorem step_sets {er : EndRead} {op : Op Val D} {s s' : GM Val D} {c : Fam} {k : Int}
    (h : step er op s = some (.done, s')) (hs : VInv s) (h0 : 0 ≤ k) (h1 : k < 2 ^ 56) (hset : sets c k op = true) :
    s'.values.contains (keyOf c k) = true := by
  rw [step_state h]
  cases op <;> simp [sets] at hset
  · obtain ⟨rfl, rfl⟩ := hset; exact has_of_set hs h0 h1
  · obtain ⟨rfl, rfl⟩ := hset; exact has_of_set hs h0 h1
  · obtain ⟨rfl, rfl⟩ := hset; exact has_of_set hs h0 h1
  · obtain ⟨rfl, rfl⟩ := hset; exact has_of_set hs h0 h1
  · obtain ⟨hc, rfl⟩ := hset
    simp only [stateAfter, setNavstate]
    rw [bind_run]
    have hv := vinv_setState (v := ‹Val›) hs (keyOf_eq (c := .X) h0 h1) 
    rw [set_ok hs (keyOf_eq (c := .X) h0 h1)]
    rcases hc with rfl | rfl
    · refine (keeps_has_set _ _ _ _ ⟨vinv_setState hs (keyOf_eq (c := .X) h0 h1) _ _, ?_⟩).2
      simp [setState, contains_assign hs.values]
    · exact has_of_set (vinv_setState hs (keyOf_eq (c := .X) h0 h1) _ _) h0 h1

/-! ## What one optimisation does -/

/-- The ways a call of optimise can go, with the calls made on the graph manager part and what the optimiser
accepted. -/
inductive OptRun (er : EndRead) (api : OptApi Val D O) (k : Int) (s : RIsam Val D O) :
    Resp Val D → RIsam Val D O → Log Val D → List (Event Val D) → Prop where
  | extractThrew {fs g1 g2} (h1 : step er (.extractFactors k) s.gm = some (.factors fs, g1))
      (h2 : step er (.extractValues k) g1 = some (.threw, g2)) :
      OptRun er api k s .threw { s with gm := g2 }
        [(.extractFactors k, .factors fs), (.extractValues k, .threw)] []
  | updateThrew {fs g1 vs g2} (h1 : step er (.extractFactors k) s.gm = some (.factors fs, g1))
      (h2 : step er (.extractValues k) g1 = some (.values vs, g2)) (h3 : api.update s.opt.1 fs vs = .throws) :
      OptRun er api k s .threw { s with gm := g2 }
        [(.extractFactors k, .factors fs), (.extractValues k, .values vs)] []
  | feedbackThrew {fs g1 vs g2 o g3} (h1 : step er (.extractFactors k) s.gm = some (.factors fs, g1))
      (h2 : step er (.extractValues k) g1 = some (.values vs, g2)) (h3 : api.update s.opt.1 fs vs = .ok o)
      (h4 : step er (.updateFromValues (api.estimate o)) g2 = some (.threw, g3)) :
      OptRun er api k s .threw { s with gm := g3, opt := (o, s.opt.2 ++ [.update fs vs]), optKey := k }
        [(.extractFactors k, .factors fs), (.extractValues k, .values vs), (.updateFromValues (api.estimate o), .threw)]
        [.update fs vs]
  | plain {fs g1 vs g2 o g3} (h1 : step er (.extractFactors k) s.gm = some (.factors fs, g1))
      (h2 : step er (.extractValues k) g1 = some (.values vs, g2)) (h3 : api.update s.opt.1 fs vs = .ok o)
      (h4 : step er (.updateFromValues (api.estimate o)) g2 = some (.done, g3))
      (h5 : ¬ (s.marginalisation = true ∧ s.margKey ≤ k - s.window)) :
      OptRun er api k s .done { s with gm := g3, opt := (o, s.opt.2 ++ [.update fs vs]), optKey := k }
        [(.extractFactors k, .factors fs), (.extractValues k, .values vs), (.updateFromValues (api.estimate o), .done)]
        [.update fs vs]
  | margThrew {fs g1 vs g2 o g3 ks g4} (h1 : step er (.extractFactors k) s.gm = some (.factors fs, g1))
      (h2 : step er (.extractValues k) g1 = some (.values vs, g2)) (h3 : api.update s.opt.1 fs vs = .ok o)
      (h4 : step er (.updateFromValues (api.estimate o)) g2 = some (.done, g3))
      (h5 : s.marginalisation = true ∧ s.margKey ≤ k - s.window)
      (h6 : step er (.extractKeys (k - s.window)) g3 = some (.keys ks, g4))
      (h7 : api.marginalizeLeaves o ks = .throws) :
      OptRun er api k s .threw
        { s with gm := g4, opt := (o, s.opt.2 ++ [.update fs vs]), optKey := k, margKey := k - s.window }
        [(.extractFactors k, .factors fs), (.extractValues k, .values vs), (.updateFromValues (api.estimate o), .done),
          (.extractKeys (k - s.window), .keys ks)]
        [.update fs vs]
  | marg {fs g1 vs g2 o g3 ks g4 o'} (h1 : step er (.extractFactors k) s.gm = some (.factors fs, g1))
      (h2 : step er (.extractValues k) g1 = some (.values vs, g2)) (h3 : api.update s.opt.1 fs vs = .ok o)
      (h4 : step er (.updateFromValues (api.estimate o)) g2 = some (.done, g3))
      (h5 : s.marginalisation = true ∧ s.margKey ≤ k - s.window)
      (h6 : step er (.extractKeys (k - s.window)) g3 = some (.keys ks, g4))
      (h7 : api.marginalizeLeaves o ks = .ok o') :
      OptRun er api k s .done
        { s with gm := g4, opt := (o', s.opt.2 ++ [.update fs vs, .marginalize ks]), optKey := k,
                 margKey := k - s.window }
        [(.extractFactors k, .factors fs), (.extractValues k, .values vs), (.updateFromValues (api.estimate o), .done),
          (.extractKeys (k - s.window), .keys ks)]
        [.update fs vs, .marginalize ks]

theorem updateFromValues_ne_ub (vs : List (Key × Val)) (s : GM Val D) : (updateFromValues vs s).1 ≠ .ub := by
  induction vs generalizing s with
  | nil => simp [updateFromValues]
  | cons e vs ih =>
    obtain ⟨k, v⟩ := e
    unfold updateFromValues
    rw [bind_run, update_run]
    by_cases hc : s.values.contains k = true
    · rw [if_pos hc]; exact ih _
    · rw [if_neg hc]; simp

theorem optRun_of_step {er : EndRead} {api : OptApi Val D O} {k : Int} {s s' : RIsam Val D O} {r : Resp Val D}
    (h : istep er api (.optimise k) s = some (r, s')) : ∃ seg ev, OptRun er api k s r s' seg ev := by
  have h1 : step er (.extractFactors k) s.gm =
      some (.factors (extractFactorsLoop k s.gm.newFactors).1,
        { s.gm with newFactors := (extractFactorsLoop k s.gm.newFactors).2 }) := rfl
  simp only [istep, optimise, bind_run, onGm, extractNewFactors] at h
  generalize (extractFactorsLoop k s.gm.newFactors).1 = fs at h h1
  generalize { s.gm with newFactors := (extractFactorsLoop k s.gm.newFactors).2 } = g1 at h h1
  rcases hv : extractNewValues er k g1 with ⟨ov, g2⟩
  rw [hv] at h
  cases ov with
  | ub => simp [irespOf] at h
  | throws =>
    simp [irespOf] at h
    obtain ⟨rfl, rfl⟩ := h
    exact ⟨_, _, .extractThrew h1 (by simp only [step, hv, respOf])⟩
  | ok vs =>
    have h2 : step er (.extractValues k) g1 = some (.values vs, g2) := by simp only [step, hv, respOf]
    simp only [get_run, recording] at h
    cases hu : api.update s.opt.1 fs vs with
    | ub => rw [hu] at h; simp [irespOf, lift_run] at h
    | throws =>
      rw [hu] at h; simp [irespOf, lift_run] at h
      obtain ⟨rfl, rfl⟩ := h
      exact ⟨_, _, .updateThrew h1 h2 hu⟩
    | ok o =>
      rw [hu] at h
      simp only [lift_run, modify_run] at h
      rcases hf : updateFromValues (api.estimate o) g2 with ⟨of, g3⟩
      rw [hf] at h
      cases of with
      | ub => exact absurd (by rw [hf]) (updateFromValues_ne_ub (api.estimate o) g2)
      | throws =>
        simp [irespOf] at h
        obtain ⟨rfl, rfl⟩ := h
        exact ⟨_, _, .feedbackThrew h1 h2 hu (by simp only [step, hf, respOf])⟩
      | ok u =>
        have h4 : step er (.updateFromValues (api.estimate o)) g2 = some (.done, g3) := by simp only [step, hf, respOf]
        simp only at h
        by_cases h5 : s.marginalisation = true ∧ s.margKey ≤ k - s.window
        · rw [if_pos h5] at h
          have h6 : step er (.extractKeys (k - s.window)) g3 =
            some (.keys (extractKeysLoop (k - s.window) g3.unmarg).1,
              { g3 with unmarg := (extractKeysLoop (k - s.window) g3.unmarg).2 }) := rfl
          simp only [marginalise, bind_run, get_run] at h
          rw [if_neg (by omega)] at h
          simp only [bind_run, modify_run, get_run, onGm, extractUnmarginalisedKeys] at h
          generalize (extractKeysLoop (k - s.window) g3.unmarg).1 = ks at h h6
          cases hm : api.marginalizeLeaves o ks with
          | ub => rw [hm] at h; simp [irespOf, lift_run] at h
          | throws =>
            rw [hm] at h; simp [irespOf, lift_run] at h
            obtain ⟨rfl, rfl⟩ := h
            exact ⟨_, _, .margThrew h1 h2 hu h4 h5 h6 hm⟩
          | ok o' =>
            rw [hm] at h; simp [irespOf, lift_run] at h
            obtain ⟨rfl, rfl⟩ := h
            exact ⟨_, _, .marg h1 h2 hu h4 h5 h6 hm⟩
        · rw [if_neg h5] at h
          simp [irespOf] at h
          obtain ⟨rfl, rfl⟩ := h
          exact ⟨_, _, .plain h1 h2 hu h4 h5⟩

/-- The ways an explicit call of marginalise can go. -/
inductive MargRun (er : EndRead) (api : OptApi Val D O) (k : Int) (s : RIsam Val D O) :
    Resp Val D → RIsam Val D O → Log Val D → List (Event Val D) → Prop where
  | refused (h : s.optKey < k) : MargRun er api k s .threw s [] []
  | threw {ks g} (h : k ≤ s.optKey) (h6 : step er (.extractKeys k) s.gm = some (.keys ks, g))
      (h7 : api.marginalizeLeaves s.opt.1 ks = .throws) :
      MargRun er api k s .threw { s with gm := g, margKey := k } [(.extractKeys k, .keys ks)] []
  | done {ks g o'} (h : k ≤ s.optKey) (h6 : step er (.extractKeys k) s.gm = some (.keys ks, g))
      (h7 : api.marginalizeLeaves s.opt.1 ks = .ok o') :
      MargRun er api k s .done { s with gm := g, margKey := k, opt := (o', s.opt.2 ++ [.marginalize ks]) }
        [(.extractKeys k, .keys ks)] [.marginalize ks]

theorem margRun_of_step {er : EndRead} {api : OptApi Val D O} {k : Int} {s s' : RIsam Val D O} {r : Resp Val D}
    (h : istep er api (.marginalise k) s = some (r, s')) : ∃ seg ev, MargRun er api k s r s' seg ev := by
  have h6 : step er (.extractKeys k) s.gm = some (.keys (extractKeysLoop k s.gm.unmarg).1,
      { s.gm with unmarg := (extractKeysLoop k s.gm.unmarg).2 }) := rfl
  simp only [istep, marginalise, bind_run, get_run] at h
  by_cases hk : k > s.optKey
  · rw [if_pos hk] at h
    simp [irespOf] at h
    obtain ⟨rfl, rfl⟩ := h
    exact ⟨_, _, .refused hk⟩
  · rw [if_neg hk] at h
    simp only [bind_run, modify_run, get_run, onGm, extractUnmarginalisedKeys, recording] at h
    generalize (extractKeysLoop k s.gm.unmarg).1 = ks at h h6
    cases hm : api.marginalizeLeaves s.opt.1 ks with
    | ub => rw [hm] at h; simp [irespOf, lift_run] at h
    | throws =>
      rw [hm] at h; simp [irespOf, lift_run] at h
      obtain ⟨rfl, rfl⟩ := h
      exact ⟨_, _, .threw (by omega) h6 hm⟩
    | ok o' =>
      rw [hm] at h; simp [irespOf, lift_run] at h
      obtain ⟨rfl, rfl⟩ := h
      exact ⟨_, _, .done (by omega) h6 hm⟩

/-! ## The link -/

/-- The specification functions that only look at creations do not see extractions and feedbacks. -/
def Internal : Op Val D → Prop
  | .extractFactors _ => True
  | .extractValues _ => True
  | .extractKeys _ => True
  | .updateFromValues _ => True
  | _ => False

theorem spec_internal {op : Op Val D} (h : Internal op) (r : Resp Val D) (log : List (Op Val D × Resp Val D)) :
    frames ((op, r) :: log) = frames log ∧ created ((op, r) :: log) = created log ∧
      (StereoOk log → StereoOk ((op, r) :: log)) := by
  cases op <;> simp [Internal] at h <;> exact ⟨rfl, rfl, fun h => h⟩

/-- A history `glog` of the graph manager part that explains the history `ilog` of the whole. -/
structure Link (er : EndRead) (ilog : ILog Val D) (s : RIsam Val D O) (glog : Log Val D) : Prop where
  reaches : Reaches er glog s.gm
  frames : frames glog.reverse = frames (calls ilog).reverse
  created : created glog.reverse = created (calls ilog).reverse
  stereo : StereoOk (calls ilog).reverse → StereoOk glog.reverse
  vars : (handedVars s.opt.2).Sublist (extractedKeys glog.reverse)
  factors : (handedFactors s.opt.2).Sublist (extractedFactors glog.reverse)
  marg : (margVars s.opt.2).Sublist (extractedUnmarg glog.reverse)
  all : AllOptimised ilog → ExtractOk glog.reverse ∧ handedVars s.opt.2 = extractedKeys glog.reverse ∧
    handedFactors s.opt.2 = extractedFactors glog.reverse
  key : AllOptimised ilog → s.optKey = lastOptimised ilog.reverse
  allMarg : AllOptimised ilog → MargAccepted ilog.reverse → margVars s.opt.2 = extractedUnmarg glog.reverse
  set : ∀ c j, 0 ≤ j → j < 2 ^ 56 → HasBeenSet c j (calls ilog) → s.gm.values.contains (keyOf c j) = true

theorem calls_append (a b : ILog Val D) : calls (a ++ b) = calls a ++ calls b := by
  induction a with
  | nil => rfl
  | cons x a ih =>
    obtain ⟨op, r⟩ := x
    cases op <;> simp [calls, ih]

theorem handedVars_append (a b : List (Event Val D)) : handedVars (a ++ b) = handedVars a ++ handedVars b := by
  induction a with
  | nil => rfl
  | cons x a ih => cases x <;> simp [handedVars, ih]

theorem handedFactors_append (a b : List (Event Val D)) :
    handedFactors (a ++ b) = handedFactors a ++ handedFactors b := by
  induction a with
  | nil => rfl
  | cons x a ih => cases x <;> simp [handedFactors, ih]

theorem margVars_append (a b : List (Event Val D)) : margVars (a ++ b) = margVars a ++ margVars b := by
  induction a with
  | nil => rfl
  | cons x a ih => cases x <;> simp [margVars, ih]

theorem allOptimised_left {a b : ILog Val D} (h : AllOptimised (a ++ b)) : AllOptimised a :=
  fun k r hm => h k r (List.mem_append_left _ hm)

theorem allOptimised_last {a : ILog Val D} {k : Int} {r : Resp Val D} (h : AllOptimised (a ++ [(.optimise k, r)])) :
    r = .done := h k r (by simp)

theorem margAccepted_left {a : ILog Val D} {x : IOp Val D × Resp Val D} (h : MargAccepted (a ++ [x]).reverse) :
    MargAccepted a.reverse := by
  rw [List.reverse_append, List.reverse_singleton, List.singleton_append] at h
  obtain ⟨op, r⟩ := x
  cases op <;> simp only [MargAccepted] at h
  · exact h
  · exact h
  · exact h.2
  · exact h

/-- A run of internal calls. -/
inductive Inner (er : EndRead) : GM Val D → Log Val D → GM Val D → Prop where
  | nil {g} : Inner er g [] g
  | cons {g g1 g' op r seg} : Internal op → step er op g = some (r, g1) → Inner er g1 seg g' →
      Inner er g ((op, r) :: seg) g'

theorem inner_reaches {er : EndRead} {g g' : GM Val D} {glog seg : Log Val D} (h : Reaches er glog g)
    (hi : Inner er g seg g') : Reaches er (glog ++ seg) g' := by
  induction hi generalizing glog with
  | nil => simpa using h
  | cons _ hs _ ih =>
    have := ih (h.step hs)
    simpa using this

theorem inner_spec {er : EndRead} {g g' : GM Val D} {seg : Log Val D} (hi : Inner er g seg g') (glog : Log Val D) :
    frames (glog ++ seg).reverse = frames glog.reverse ∧ created (glog ++ seg).reverse = created glog.reverse ∧
      (StereoOk glog.reverse → StereoOk (glog ++ seg).reverse) := by
  induction hi generalizing glog with
  | nil => simp
  | @cons g g1 g' op r seg hint _ _ ih =>
    obtain ⟨a, b, c⟩ := ih (glog ++ [(op, r)])
    obtain ⟨a', b', c'⟩ := spec_internal hint r glog.reverse
    rw [List.append_assoc, List.singleton_append] at a b c
    have e : (glog ++ [(op, r)]).reverse = (op, r) :: glog.reverse := by simp
    rw [e] at a b c
    exact ⟨a.trans a', b.trans b', fun h => c (c' h)⟩

theorem inner_has {er : EndRead} {g g' : GM Val D} {seg : Log Val D} (hi : Inner er g seg g') (hv : VInv g) {raw : Key}
    (hc : g.values.contains raw = true) : g'.values.contains raw = true := by
  induction hi with
  | nil => exact hc
  | cons _ hs _ ih => exact ih (step_vinv hs hv) (step_has hs hv hc)

theorem extractOk_append {glog seg : Log Val D} (h : ExtractOk glog.reverse)
    (hseg : ∀ m r, (Op.extractValues m, r) ∈ seg → r ≠ .threw) : ExtractOk (glog ++ seg).reverse := by
  intro m r hm
  rw [List.mem_reverse, List.mem_append] at hm
  rcases hm with hm | hm
  · exact h m r (List.mem_reverse.2 hm)
  · exact hseg m r hm

theorem extractedKeys_append (b a : List (Op Val D × Resp Val D)) :
    extractedKeys (b ++ a) = extractedKeys a ++ extractedKeys b := by
  induction b with
  | nil => simp [extractedKeys]
  | cons x b ih => obtain ⟨op, r⟩ := x; cases r <;> simp [extractedKeys, ih]

theorem extractedFactors_append (b a : List (Op Val D × Resp Val D)) :
    extractedFactors (b ++ a) = extractedFactors a ++ extractedFactors b := by
  induction b with
  | nil => simp [extractedFactors]
  | cons x b ih => obtain ⟨op, r⟩ := x; cases r <;> simp [extractedFactors, ih]

theorem extractedUnmarg_append (b a : List (Op Val D × Resp Val D)) :
    extractedUnmarg (b ++ a) = extractedUnmarg a ++ extractedUnmarg b := by
  induction b with
  | nil => simp [extractedUnmarg]
  | cons x b ih => obtain ⟨op, r⟩ := x; cases r <;> simp [extractedUnmarg, ih]

theorem step_factors_resp {er : EndRead} {op : Op Val D} {s s' : GM Val D} {r : Resp Val D}
    (h : step er op s = some (r, s')) (hop : ∀ m, op ≠ .extractFactors m) : ∀ fs, r ≠ .factors fs := by
  cases op <;> simp only [step] at h <;> first
    | exact absurd rfl (hop _)
    | (obtain ⟨_, h2⟩ := respOf_some h
       rcases h2 with ⟨_, _, e⟩ | ⟨_, e⟩ <;> (rw [e]; simp))

theorem extractedFactors_other {op : Op Val D} {r : Resp Val D} (h : ∀ vs, r ≠ .factors vs)
    (log : List (Op Val D × Resp Val D)) : extractedFactors ((op, r) :: log) = extractedFactors log := by
  cases r <;> simp_all [extractedFactors]

theorem created_eq_of {a b : List (Op Val D × Resp Val D)} (hf : frames a = frames b) (hc : created a = created b)
    (op : Op Val D) (r : Resp Val D) :
    frames ((op, r) :: a) = frames ((op, r) :: b) ∧ created ((op, r) :: a) = created ((op, r) :: b) := by
  cases op <;> cases r <;> simp [frames, created, hf, hc]

theorem stereoOk_of {a b : List (Op Val D × Resp Val D)} (hf : frames a = frames b) (hs : StereoOk b → StereoOk a)
    (op : Op Val D) (r : Resp Val D) (h : StereoOk ((op, r) :: b)) : StereoOk ((op, r) :: a) := by
  cases op <;> simp only [StereoOk] at h ⊢ <;> first
    | exact hs h
    | (rw [hf]; exact ⟨h.1, h.2.1, h.2.2.1, hs h.2.2.2⟩)

/-- A call on the whole object that does nothing but internal calls on the graph manager part. -/
theorem link_inner {er : EndRead} {ilog : ILog Val D} {s s' : RIsam Val D O} {glog seg : Log Val D}
    {op : IOp Val D} {r : Resp Val D} {ev : List (Event Val D)} (h : Link er ilog s glog)
    (hi : Inner er s.gm seg s'.gm) (hop : ∀ op', op ≠ .call op') (hev : s'.opt.2 = s.opt.2 ++ ev)
    (vars : (handedVars ev).Sublist (extractedKeys seg.reverse))
    (factors : (handedFactors ev).Sublist (extractedFactors seg.reverse))
    (marg : (margVars ev).Sublist (extractedUnmarg seg.reverse))
    (all : AllOptimised (ilog ++ [(op, r)]) → (∀ m r, (Op.extractValues m, r) ∈ seg → r ≠ .threw) ∧
      handedVars ev = extractedKeys seg.reverse ∧ handedFactors ev = extractedFactors seg.reverse)
    (key : AllOptimised (ilog ++ [(op, r)]) → s'.optKey = lastOptimised ((op, r) :: ilog.reverse))
    (allMarg : AllOptimised (ilog ++ [(op, r)]) → MargAccepted (ilog ++ [(op, r)]).reverse →
      margVars ev = extractedUnmarg seg.reverse) :
    Link er (ilog ++ [(op, r)]) s' (glog ++ seg) := by
  have hc : calls (ilog ++ [(op, r)]) = calls ilog := by
    rw [calls_append]
    cases op with
    | call op' => exact absurd rfl (hop op')
    | _ => simp [calls]
  obtain ⟨e1, e2, e3⟩ := inner_spec hi glog
  have k1 := extractedKeys_append seg.reverse glog.reverse
  have k2 := extractedFactors_append seg.reverse glog.reverse
  have k3 := extractedUnmarg_append seg.reverse glog.reverse
  rw [← List.reverse_append] at k1 k2 k3
  refine ⟨inner_reaches h.reaches hi, ?_, ?_, ?_, ?_, ?_, ?_, ?_, ?_, ?_, ?_⟩
  · rw [e1, hc]; exact h.frames
  · rw [e2, hc]; exact h.created
  · rw [hc]; exact fun hs => e3 (h.stereo hs)
  · rw [hev, handedVars_append, k1]; exact h.vars.append vars
  · rw [hev, handedFactors_append, k2]; exact h.factors.append factors
  · rw [hev, margVars_append, k3]; exact h.marg.append marg
  · intro ha
    obtain ⟨a1, a2, a3⟩ := h.all (allOptimised_left ha)
    obtain ⟨b1, b2, b3⟩ := all ha
    exact ⟨extractOk_append a1 b1, by rw [hev, handedVars_append, k1, a2, b2],
      by rw [hev, handedFactors_append, k2, a3, b3]⟩
  · intro ha
    rw [key ha]; simp
  · intro ha hm
    rw [hev, margVars_append, k3, h.allMarg (allOptimised_left ha) (margAccepted_left hm), allMarg ha hm]
  · rw [hc]
    intro c j h0 h1 hs
    exact inner_has hi (reaches_vinv h.reaches) (h.set c j h0 h1 hs)

theorem link_step {er : EndRead} {api : OptApi Val D O} {ilog : ILog Val D} {s s' : RIsam Val D O} {glog : Log Val D}
    {op : IOp Val D} {r : Resp Val D} (h : Link er ilog s glog) (hs : istep er api op s = some (r, s')) :
    ∃ glog', Link er (ilog ++ [(op, r)]) s' glog' := by
  cases op with
  | call op =>
    simp only [istep] at hs
    split at hs
    · rename_i hpub
      cases hst : step er op s.gm with
      | none => rw [hst] at hs; simp at hs
      | some x =>
        obtain ⟨r', g⟩ := x
        rw [hst] at hs
        simp at hs
        obtain ⟨rfl, rfl⟩ := hs
        refine ⟨glog ++ [(op, r')], h.reaches.step hst, ?_, ?_, ?_, ?_, ?_, ?_, ?_, ?_, ?_, ?_⟩
        all_goals simp only [calls_append, calls, List.reverse_append, List.reverse_singleton, List.singleton_append]
        · exact (created_eq_of h.frames h.created op r').1
        · exact (created_eq_of h.frames h.created op r').2
        · exact stereoOk_of h.frames h.stereo op r'
        · rw [extractedKeys_other (step_values_resp hst (by intro m e; subst e; simp [Op.isPublic] at hpub))]
          exact h.vars
        · rw [extractedFactors_other (step_factors_resp hst (by intro m e; subst e; simp [Op.isPublic] at hpub))]
          exact h.factors
        · rw [extractedUnmarg_other (step_keys_resp hst (by intro m e; subst e; simp [Op.isPublic] at hpub))]
          exact h.marg
        · intro ha
          rw [extractedKeys_other (step_values_resp hst (by intro m e; subst e; simp [Op.isPublic] at hpub)),
            extractedFactors_other (step_factors_resp hst (by intro m e; subst e; simp [Op.isPublic] at hpub))]
          obtain ⟨a1, a2⟩ := h.all (allOptimised_left ha)
          refine ⟨?_, a2⟩
          intro m r hm
          rcases List.mem_cons.1 hm with e | hm
          · injection e with e1 e2
            subst e1; simp [Op.isPublic] at hpub
          · exact a1 m r hm
        · intro ha
          exact h.key (allOptimised_left ha)
        · intro ha hm
          rw [extractedUnmarg_other (step_keys_resp hst (by intro m e; subst e; simp [Op.isPublic] at hpub))]
          exact h.allMarg (allOptimised_left ha) hm
        · rintro c j h0 h1 ⟨op', hm, hset⟩
          rcases List.mem_append.1 hm with hm | hm
          · exact step_has hst (reaches_vinv h.reaches) (h.set c j h0 h1 ⟨op', hm, hset⟩)
          · simp at hm
            obtain ⟨rfl, rfl⟩ := hm
            exact step_sets hst (reaches_vinv h.reaches) h0 h1 hset
    · simp at hs
  | setMarginalisation b w =>
    have hs' : r = .done ∧ s'.gm = s.gm ∧ s'.opt = s.opt ∧ s'.optKey = s.optKey := by
      simp only [istep, setMarginalisation, modify_run, irespOf] at hs
      cases b <;> simp at hs <;> obtain ⟨rfl, rfl⟩ := hs <;> simp
    obtain ⟨rfl, e1, e2, e3⟩ := hs'
    refine ⟨glog ++ [], link_inner (ev := []) h ?_ (by simp) ?_ ?_ ?_ ?_ ?_ ?_ ?_⟩
    · rw [e1]; exact .nil
    · rw [e2]; simp
    · simp [handedVars]
    · simp [handedFactors]
    · simp [margVars]
    · intro _; simp [handedVars, handedFactors, extractedKeys, extractedFactors]
    · intro ha; rw [e3]; exact h.key (allOptimised_left ha)
    · intro _ _; simp [margVars, extractedUnmarg]
  | marginalise k =>
    obtain ⟨seg, ev, hr⟩ := margRun_of_step hs
    refine ⟨glog ++ seg, ?_⟩
    cases hr with
    | refused hk =>
      refine link_inner (ev := []) h .nil (by simp) (by simp) ?_ ?_ ?_ ?_ ?_ ?_
      · simp [handedVars]
      · simp [handedFactors]
      · simp [margVars]
      · intro _; simp [handedVars, handedFactors, extractedKeys, extractedFactors]
      · intro ha; exact h.key (allOptimised_left ha)
      · intro _ _; simp [margVars, extractedUnmarg]
    | @threw ks g hk h6 h7 =>
      refine link_inner (ev := []) h (.cons trivial h6 .nil) (by simp) (by simp) ?_ ?_ ?_ ?_ ?_ ?_
      · simp [handedVars]
      · simp [handedFactors]
      · simp [margVars]
      · intro _; simp [handedVars, handedFactors, extractedKeys, extractedFactors]
      · intro ha; exact h.key (allOptimised_left ha)
      · intro ha hm
        rw [List.reverse_append, List.reverse_singleton, List.singleton_append] at hm
        simp only [MargAccepted] at hm
        rw [← h.key (allOptimised_left ha)] at hm
        rcases hm.1 with e | e
        · simp at e
        · omega
    | @done ks g o' hk h6 h7 =>
      refine link_inner (ev := [.marginalize ks]) h (.cons trivial h6 .nil) (by simp) (by simp) ?_ ?_ ?_ ?_ ?_ ?_
      · simp [handedVars]
      · simp [handedFactors]
      · simp [margVars, extractedUnmarg]
      · intro _; simp [handedVars, handedFactors, extractedKeys, extractedFactors]
      · intro ha; exact h.key (allOptimised_left ha)
      · intro _ _; simp [margVars, extractedUnmarg]
  | optimise k =>
    obtain ⟨seg, ev, hr⟩ := optRun_of_step hs
    refine ⟨glog ++ seg, ?_⟩
    cases hr with
    | extractThrew h1 h2 =>
      refine link_inner (ev := []) h (.cons trivial h1 (.cons trivial h2 .nil)) (by simp) (by simp) ?_ ?_ ?_ ?_ ?_ ?_
      · simp [handedVars]
      · simp [handedFactors]
      · simp [margVars]
      all_goals intro ha; exact absurd (allOptimised_last ha) (by simp)
    | updateThrew h1 h2 h3 =>
      refine link_inner (ev := []) h (.cons trivial h1 (.cons trivial h2 .nil)) (by simp) (by simp) ?_ ?_ ?_ ?_ ?_ ?_
      · simp [handedVars]
      · simp [handedFactors]
      · simp [margVars]
      all_goals intro ha; exact absurd (allOptimised_last ha) (by simp)
    | @feedbackThrew fs g1 vs g2 o g3 h1 h2 h3 h4 =>
      refine link_inner (ev := [.update fs vs]) h (.cons trivial h1 (.cons trivial h2 (.cons trivial h4 .nil)))
        (by simp) (by simp) ?_ ?_ ?_ ?_ ?_ ?_
      · simp [handedVars, extractedKeys]
      · simp [handedFactors, extractedFactors]
      · simp [margVars]
      all_goals intro ha; exact absurd (allOptimised_last ha) (by simp)
    | @plain fs g1 vs g2 o g3 h1 h2 h3 h4 h5 =>
      refine link_inner (ev := [.update fs vs]) h (.cons trivial h1 (.cons trivial h2 (.cons trivial h4 .nil)))
        (by simp) (by simp) ?_ ?_ ?_ ?_ ?_ ?_
      · simp [handedVars, extractedKeys]
      · simp [handedFactors, extractedFactors]
      · simp [margVars]
      · intro _; simp [handedVars, handedFactors, extractedKeys, extractedFactors]
      · intro ha; simp [lastOptimised]
      · intro _ _; simp [margVars, extractedUnmarg]
    | @margThrew fs g1 vs g2 o g3 ks g4 h1 h2 h3 h4 h5 h6 h7 =>
      refine link_inner (ev := [.update fs vs]) h
        (.cons trivial h1 (.cons trivial h2 (.cons trivial h4 (.cons trivial h6 .nil)))) (by simp) (by simp) ?_ ?_ ?_ ?_ ?_ ?_
      · simp [handedVars, extractedKeys]
      · simp [handedFactors, extractedFactors]
      · simp [margVars]
      all_goals intro ha; exact absurd (allOptimised_last ha) (by simp)
    | @marg fs g1 vs g2 o g3 ks g4 o' h1 h2 h3 h4 h5 h6 h7 =>
      refine link_inner (ev := [.update fs vs, .marginalize ks]) h
        (.cons trivial h1 (.cons trivial h2 (.cons trivial h4 (.cons trivial h6 .nil)))) (by simp) (by simp) ?_ ?_ ?_ ?_ ?_ ?_
      · simp [handedVars, extractedKeys]
      · simp [handedFactors, extractedFactors]
      · simp [margVars, extractedUnmarg]
      · intro _; simp [handedVars, handedFactors, extractedKeys, extractedFactors]
      · intro ha; simp [lastOptimised]
      · intro _ _; simp [margVars, extractedUnmarg]

theorem link_exists {er : EndRead} {api : OptApi Val D O} {o : O} {ilog : ILog Val D} {s : RIsam Val D O}
    (h : IReaches er api o ilog s) : ∃ glog, Link er ilog s glog := by
  induction h with
  | init =>
    exact ⟨[], .init, rfl, rfl, fun h => h, by simp [handedVars], by simp [handedFactors], by simp [margVars],
      fun _ => ⟨by simp [ExtractOk], rfl, rfl⟩, fun _ => rfl, fun _ _ => rfl, by simp [HasBeenSet, calls]⟩
  | step _ hs ih =>
    obtain ⟨glog, hl⟩ := ih
    exact link_step hl hs

end Graph

end Serpent
