import Verif.Lemmas.GraphFactors

/-!
# Lemmas on value ranges and the extraction of new values
-/

namespace Serpent

namespace Graph

open M

variable {Val D : Type}

theorem contains_foldl_erase {μ : Type} (l : List (Key × μ)) (m : OMap Key Val) (k : Key) :
    (l.foldl (fun m e => m.erase e.1) m).contains k = true ↔ m.contains k = true ∧ k ∉ l.map Prod.fst := by
  unfold OMap.contains
  rw [find_foldl_erase]
  by_cases h : k ∈ l.map Prod.fst
  · rw [if_pos h]; simp only [h, not_true_eq_false, and_false]; simp
  · rw [if_neg h]; simp only [h, not_false_eq_true, and_true]

theorem extractedKeys_other {op : Op Val D} {r : Resp Val D} (h : ∀ vs, r ≠ .values vs)
    (log : List (Op Val D × Resp Val D)) : extractedKeys ((op, r) :: log) = extractedKeys log := by
  cases r <;> simp_all [extractedKeys]

/-- The new values are those variables that have a value and are not in `ks`. -/
def SameNew (ks : List Key) (t : GM Val D) : Prop :=
  VInv t ∧ (∀ raw, t.newValues.contains raw = true ↔ t.values.contains raw = true ∧ raw ∉ ks) ∧
    ∀ raw ∈ ks, t.values.contains raw = true

theorem keeps_same_set {ks : List Key} (c : Fam) (k : Int) (v : Val) : Keeps (SameNew ks) (set (D := D) c k v) := by
  intro t ht
  refine ⟨keeps_vinv_set _ _ _ _ ht.1, ?_⟩
  cases hk : sym c k with
  | ub => exact absurd hk (sym_ne_ub _ _)
  | throws => rw [set_throws t hk]; exact ht.2
  | ok raw' =>
    rw [set_ok ht.1 hk]
    have hv : ∀ raw, (setState t raw' k v).values.contains raw = true ↔ raw = raw' ∨ t.values.contains raw = true := by
      intro raw
      unfold setState
      simp [contains_assign ht.1.values]
    refine ⟨fun raw => ?_, fun raw h => (hv raw).2 (Or.inr (ht.2.2 raw h))⟩
    have hn : (setState t raw' k v).newValues.contains raw = true ↔
        t.newValues.contains raw = true ∨ (raw = raw' ∧ t.values.contains raw' = false) := by
      unfold setState
      dsimp only
      cases h1 : t.values.contains raw' with
      | false => simp [contains_assign ht.1.newValues, or_comm]
      | true =>
        cases h2 : t.newValues.contains raw' with
        | false => simp
        | true =>
          simp only [Bool.not_true, Bool.and_false, Bool.false_eq_true, if_false, contains_assign ht.1.newValues]
          by_cases e : raw = raw'
          · subst e; simp [h2]
          · simp [e]
    rw [hn, hv, ht.2.1]
    constructor
    · rintro (⟨h1, h2⟩ | ⟨rfl, h2⟩)
      · exact ⟨Or.inr h1, h2⟩
      · refine ⟨Or.inl rfl, fun hm => ?_⟩
        rw [ht.2.2 raw hm] at h2; simp at h2
    · rintro ⟨h1 | h1, h2⟩
      · subst h1
        cases h3 : t.values.contains raw with
        | true => exact Or.inl ⟨rfl, h2⟩
        | false => exact Or.inr ⟨rfl, rfl⟩
      · exact Or.inl ⟨h1, h2⟩

theorem keeps_same_update {ks : List Key} (raw' : Key) (v : Val) : Keeps (SameNew ks) (update (D := D) raw' v) := by
  intro t ht
  refine ⟨keeps_vinv_update _ _ _ ht.1, ?_⟩
  rw [update_run]
  split
  · rename_i hc
    have hv : ∀ raw, (updateState t raw' v).values.contains raw = true ↔ t.values.contains raw = true := by
      intro raw
      unfold updateState
      simp only [contains_assign ht.1.values]
      by_cases e : raw = raw'
      · subst e; simp [hc]
      · simp [e]
    refine ⟨fun raw => ?_, fun raw h => (hv raw).2 (ht.2.2 raw h)⟩
    rw [hv, ← ht.2.1]
    unfold updateState
    dsimp only
    split
    · rename_i h2
      rw [contains_assign ht.1.newValues]
      by_cases e : raw = raw'
      · subst e; simp [h2]
      · simp [e]
    · rfl
  · exact ht.2

theorem same_indep_factors {ks : List Key} : IndepFactors (SameNew (Val := Val) (D := D) ks) :=
  fun _ _ _ h => ⟨vinv_indep_factors _ _ _ h.1, h.2⟩

theorem same_indep_stereo {ks : List Key} : IndepStereo (SameNew (Val := Val) (D := D) ks) :=
  fun _ _ _ _ h => ⟨vinv_indep_stereo _ _ _ _ h.1, h.2⟩

theorem same_of_eq {ks : List Key} {s s' : GM Val D} (h : SameNew ks s) (h1 : s'.values = s.values)
    (h2 : s'.newValues = s.newValues) : SameNew ks s' := by
  refine ⟨⟨by rw [h1]; exact h.1.values, by rw [h2]; exact h.1.newValues, by rw [h1, h2]; exact h.1.coherent,
    by rw [h1]; exact h.1.symbols⟩, by rw [h1, h2]; exact h.2.1, by rw [h1]; exact h.2.2⟩

/-- Calls other than an extraction of values keep the set of extracted variables. -/
theorem step_same {er : EndRead} {op : Op Val D} {s s' : GM Val D} {r : Resp Val D} {ks : List Key}
    (h : step er op s = some (r, s')) (hs : SameNew ks s) (hop : ∀ m, op ≠ .extractValues m) : SameNew ks s' := by
  rw [step_state h]
  cases op with
  | setNamedKey n k p =>
    simp only [stateAfter, setNamedKey, modify_run]
    split <;> exact same_of_eq hs rfl rfl
  | increment n =>
    simp only [stateAfter, increment]
    split <;> exact same_of_eq hs rfl rfl
  | setPose k v => exact keeps_same_set _ _ _ _ hs
  | setVelocity k v => exact keeps_same_set _ _ _ _ hs
  | setImuBias k v => exact keeps_same_set _ _ _ _ hs
  | setBarometerBias k v => exact keeps_same_set _ _ _ _ hs
  | setNavstate k p v =>
    exact Keeps.bind (m := set .X k p) (keeps_same_set _ _ _) (fun _ => keeps_same_set _ _ _) _ hs
  | setTimestamp k t => exact same_of_eq hs rfl rfl
  | create kind k d => exact keeps_createFactor same_indep_factors _ _ _ _ hs
  | stereo k fs => exact keeps_createStereo (fun _ _ => keeps_same_set _ _ _) same_indep_factors same_indep_stereo _ _ _ hs
  | setExtrinsic => exact same_of_eq hs rfl rfl
  | setCalibration bp => exact same_of_eq hs rfl rfl
  | updateFromValues vs => exact keeps_updateFromValues' (fun _ _ => keeps_same_update _ _) _ _ hs
  | extractFactors m => exact same_of_eq hs rfl rfl
  | extractValues m => exact absurd rfl (hop m)
  | extractKeys m => exact same_of_eq hs rfl rfl

theorem step_values_resp {er : EndRead} {op : Op Val D} {s s' : GM Val D} {r : Resp Val D}
    (h : step er op s = some (r, s')) (hop : ∀ m, op ≠ .extractValues m) : ∀ vs, r ≠ .values vs := by
  rcases step_quiet h with ⟨kind, k, d, rfl⟩ | ⟨k, l, rfl⟩ | ⟨m, rfl⟩ | ⟨m, rfl⟩ | ⟨_, _, _, _, _, q, _⟩
  · have hs' : respOf (fun _ => .done) (createFactor kind k d s) = some (r, s') := h
    obtain ⟨_, h2⟩ := respOf_some hs'
    rcases h2 with ⟨_, _, e⟩ | ⟨_, e⟩ <;> (rw [e]; simp)
  · have hs' : respOf (fun _ => .done) (createStereo k l s) = some (r, s') := h
    obtain ⟨_, h2⟩ := respOf_some hs'
    rcases h2 with ⟨_, _, e⟩ | ⟨_, e⟩ <;> (rw [e]; simp)
  · have hs' : respOf .factors (extractNewFactors m s) = some (r, s') := h
    obtain ⟨_, h2⟩ := respOf_some hs'
    rcases h2 with ⟨_, _, e⟩ | ⟨_, e⟩ <;> (rw [e]; simp)
  · exact absurd rfl (hop m)
  · exact q

/-- An extraction of values either threw, leaving the values alone, or returned. -/
theorem step_extract {er : EndRead} {m : Int} {s s' : GM Val D} {r : Resp Val D}
    (h : step er (.extractValues m) s = some (r, s')) :
    (r = .threw ∧ ∃ l, s' = { s with newLandmarkIds := l }) ∨
    ∃ vs, r = .values vs ∧ extractNewValues er m s = (.ok vs, s') := by
  have hs' : respOf .values (extractNewValues er m s) = some (r, s') := h
  rcases hx : extractNewValues er m s with ⟨o, s1⟩
  rw [hx] at hs'
  rcases extractNewValues_cases er m s with ⟨o', l, ho, e⟩ | ⟨ext, l, e⟩
  · rw [hx] at e
    obtain ⟨rfl, rfl⟩ := Prod.mk.inj e
    rcases ho with rfl | rfl
    · simp [respOf] at hs'
      exact Or.inl ⟨hs'.1.symm, l, hs'.2.symm⟩
    · simp [respOf] at hs'
  · rw [hx] at e
    obtain ⟨rfl, rfl⟩ := Prod.mk.inj e
    simp [respOf] at hs'
    exact Or.inr ⟨ext, hs'.1.symm, by rw [hs'.2]⟩

/-- Along a history: the new values are the variables with a value that no extraction returned; no variable is
extracted twice. -/
theorem reaches_same {er : EndRead} {log : Log Val D} {s : GM Val D} (h : Reaches er log s) :
    SameNew (extractedKeys log.reverse) s ∧ (extractedKeys log.reverse).Nodup := by
  induction h with
  | init => exact ⟨⟨reaches_vinv (er := er) .init, by simp [OMap.contains, extractedKeys], by simp [extractedKeys]⟩, List.nodup_nil⟩
  | @step log s s' op r hr hs ih =>
    rw [List.reverse_append, List.reverse_cons, List.reverse_nil, List.nil_append, List.singleton_append]
    by_cases hop : ∃ m, op = .extractValues m
    · obtain ⟨m, rfl⟩ := hop
      rcases step_extract hs with ⟨rfl, l, rfl⟩ | ⟨vs, rfl, hx⟩
      · rw [extractedKeys_other (by simp)]
        exact ⟨same_of_eq ih.1 rfl rfl, ih.2⟩
      · have hv := reaches_vinv hr
        obtain ⟨h0, hsort, hdue, hnot, _, _, hst⟩ := extractNewValues_ok hv (reaches_linv hr).newIds hx
        have ek : extractedKeys ((Op.extractValues m, Resp.values vs) :: log.reverse)
            = extractedKeys log.reverse ++ vs.map Prod.fst := rfl
        rw [ek]
        have hin : ∀ raw ∈ vs.map Prod.fst, s.newValues.contains raw = true := by
          intro raw hraw
          obtain ⟨e, he, rfl⟩ := List.mem_map.1 hraw
          have hf := OMap.find_of_mem hsort he
          by_cases hd : Due m s.newLandmarkIds e.1
          · rw [hdue _ hd] at hf; exact contains_iff.2 ⟨_, hf⟩
          · rw [hnot _ hd] at hf; simp at hf
        refine ⟨⟨(step_vinv hs hv), ?_, ?_⟩, ?_⟩
        · intro raw
          rw [hst]
          simp only
          rw [contains_foldl_erase, ih.1.2.1, List.mem_append, not_or, and_assoc]
        · intro raw hraw
          rw [hst]
          rcases List.mem_append.1 hraw with h1 | h1
          · exact ih.1.2.2 _ h1
          · exact ((ih.1.2.1 raw).1 (hin raw h1)).1
        · rw [List.nodup_append]
          refine ⟨ih.2, ?_, ?_⟩
          · have hp : List.Pairwise (fun a b : Key => a < b) (vs.map Prod.fst) := by
              rw [List.pairwise_map]; exact hsort
            exact hp.imp (fun h => ne_of_lt h)
          · intro a ha b hb e
            subst e
            exact ((ih.1.2.1 a).1 (hin a hb)).2 ha
    · have hop' : ∀ m, op ≠ .extractValues m := fun m e => hop ⟨m, e⟩
      rw [extractedKeys_other (step_values_resp hs hop')]
      exact ⟨step_same hs ih.1 hop', ih.2⟩

end Graph

end Serpent
