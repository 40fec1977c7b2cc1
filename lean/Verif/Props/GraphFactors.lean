import Verif.Lemmas.GraphFactors

/-!
# Properties of factors and stereo landmarks (C05, C06, C09, C10, C11)

The words used in the statements (`created`, `waiting`, `extractedFactors`, `frames`, `tracks`, …) are functions of the
history only, defined in `Verif.Spec.Graph`.
-/

namespace Serpent

namespace Graph

open M

variable {Val D : Type}

/-! ## Lemmas -/

theorem filter_tag {α : Type} (m : OMap Int (List α)) (p : Int → Bool) :
    tag (m.filter (fun e => p e.1)) = (tag m).filter (fun e => p e.1) := by
  induction m with
  | nil => rfl
  | cons e m ih =>
    have e0 : tag (e :: m) = e.2.map (fun a => (e.1, a)) ++ tag m := rfl
    rw [e0, List.filter_append, List.filter_cons, ← ih]
    by_cases hp : p e.1 = true
    · rw [if_pos hp]
      have : (e.2.map (fun a => (e.1, a))).filter (fun e => p e.1) = e.2.map (fun a => (e.1, a)) := by
        rw [List.filter_eq_self]
        intro a ha
        rw [List.mem_map] at ha
        obtain ⟨_, _, rfl⟩ := ha
        exact hp
      rw [this]; rfl
    · rw [if_neg hp]
      have : (e.2.map (fun a => (e.1, a))).filter (fun e => p e.1) = [] := by
        rw [List.filter_eq_nil_iff]
        intro a ha
        rw [List.mem_map] at ha
        obtain ⟨_, _, rfl⟩ := ha
        exact hp
      rw [this]; rfl

theorem StableSort.filter {α : Type} {t w : List (Int × α)} (h : StableSort t w) (p : Int × α → Bool) :
    StableSort (t.filter p) (w.filter p) := by
  refine ⟨h.1.filter _, fun k => ?_⟩
  rw [List.filter_filter, List.filter_filter]
  have e : ∀ l : List (Int × α), l.filter (fun a => decide (a.1 = k) && p a) =
      (l.filter (fun a => decide (a.1 = k))).filter p := by
    intro l; rw [List.filter_filter]
    apply List.filter_congr; intros; rw [Bool.and_comm]
  rw [e, e, h.2 k]

theorem flatMap_eq_filter {α : Type} (m : OMap Int (List α)) (p : α → Bool) :
    m.flatMap (fun e => e.2.filter p) = ((tag m).filter (fun e => p e.2)).map Prod.snd := by
  induction m with
  | nil => rfl
  | cons e m ih =>
    have e0 : tag (e :: m) = e.2.map (fun a => (e.1, a)) ++ tag m := rfl
    rw [e0, List.filter_append, List.map_append, List.flatMap_cons, ih]
    congr 1
    rw [List.filter_map, List.map_map]
    have : (Prod.snd ∘ fun a : α => (e.1, a)) = id := rfl
    rw [this, List.map_id]
    rfl

theorem factorsFrom_eq (m : OMap Int (List (Factor D))) (h : m.Sorted) (n : Nat) (i : Int) :
    factorsFrom m n i = ((tag m).filter (fun e => decide (i ≤ e.1 ∧ e.1 < i + n))).map Prod.snd := by
  induction n generalizing i with
  | zero =>
    rw [List.filter_eq_nil_iff.2]
    · rfl
    · intro e _; simp
  | succ n ih =>
    have hl : factorsFrom m (n + 1) i = lookup m i ++ factorsFrom m n (i + 1) := by
      unfold lookup; rw [factorsFrom]; cases m.find i <;> rfl
    rw [hl, ih]
    have hs := tag_sorted h
    have ht := tag_filter h i
    -- split the sorted list at `i`
    have key : ∀ t : List (Int × Factor D), t.Pairwise (fun a b => a.1 ≤ b.1) →
        t.filter (fun e => decide (i ≤ e.1 ∧ e.1 < i + ((n + 1 : Nat) : Int))) =
          t.filter (fun e => decide (e.1 = i)) ++
          t.filter (fun e => decide (i + 1 ≤ e.1 ∧ e.1 < i + 1 + (n : Int))) := by
      intro t hp
      induction t with
      | nil => rfl
      | cons e t iht =>
        rw [List.pairwise_cons] at hp
        have iht := iht hp.2
        by_cases h1 : e.1 = i
        · have a1 : i ≤ e.1 ∧ e.1 < i + ((n + 1 : Nat) : Int) := by push_cast; omega
          have a2 : ¬ (i + 1 ≤ e.1 ∧ e.1 < i + 1 + (n : Int)) := by omega
          rw [List.filter_cons_of_pos (by simpa using a1), List.filter_cons_of_pos (by simpa using h1),
            List.filter_cons_of_neg (by simpa using a2), iht]
          rfl
        · by_cases h2 : e.1 < i
          · have a1 : ¬ (i ≤ e.1 ∧ e.1 < i + ((n + 1 : Nat) : Int)) := by omega
            have a2 : ¬ (i + 1 ≤ e.1 ∧ e.1 < i + 1 + (n : Int)) := by omega
            rw [List.filter_cons_of_neg (by simpa using a1), List.filter_cons_of_neg (by simpa using h1),
              List.filter_cons_of_neg (by simpa using a2), iht]
          · have hnil : (e :: t).filter (fun e => decide (e.1 = i)) = [] := by
              rw [List.filter_eq_nil_iff]
              intro a ha
              rcases List.mem_cons.1 ha with rfl | ha
              · simpa using h1
              · have := hp.1 a ha
                simp only [decide_eq_true_eq]; omega
            rw [hnil, List.nil_append]
            apply List.filter_congr
            intro a ha
            have : i < a.1 := by
              rcases List.mem_cons.1 ha with rfl | ha
              · omega
              · have := hp.1 a ha; omega
            apply decide_eq_decide.2
            push_cast
            omega
    rw [key _ hs, List.map_append, ht, List.map_map]
    congr 1
    simp

/-! ## C05 -/

/-- C05, extraction: for every history (in which the stereo calls succeeded, with increasing keys) and every `m`,
`extract_new_factors(m)` succeeds and returns exactly the factors created and not yet extracted with key `≤ m`, ordered
by key and then by creation. What remains waiting is, by the definition of `waiting`, the rest. -/
theorem C05_extraction {er : EndRead} {log : Log Val D} {s : GM Val D} (h : Reaches er log s)
    (hok : StereoOk log.reverse) (m : Int) :
    ∃ fs s', step er (.extractFactors m) s = some (.factors fs, s') ∧
      ListsInKeyOrder fs ((waiting log.reverse).filter (fun e => decide (e.1 ≤ m))) := by
  have hF := reaches_finv h
  have hi := factors_invariant h hok
  refine ⟨_, _, rfl, (tag s.newFactors).filter (fun e => decide (e.1 ≤ m)), ?_, ?_⟩
  · exact (tag_stableSort hF.newFactors hi.newFactors).filter _
  · show (extractFactorsLoop m s.newFactors).1 = _
    rw [extractFactorsLoop_eq _ _ hF.newFactors]
    dsimp only
    rw [← filter_tag s.newFactors (fun j => decide (j ≤ m)), tag_snd]

/-- C05, conservation: the factors that all extractions returned and those still waiting are together exactly the
factors created, with multiplicity. -/
theorem C05_conservation {er : EndRead} {log : Log Val D} {s : GM Val D} (h : Reaches er log s)
    (hok : StereoOk log.reverse) :
    (extractedFactors log.reverse ++ (waiting log.reverse).map Prod.snd).Perm ((created log.reverse).map Prod.snd) := by
  classical
  induction h with
  | init => exact List.Perm.refl _
  | @step log s s' op r hr hs ih =>
    rw [List.reverse_append, List.reverse_cons, List.reverse_nil, List.nil_append, List.singleton_append] at hok ⊢
    have add : ∀ (l : List (Int × Factor D)), StereoOk log.reverse →
        extractedFactors ((op, r) :: log.reverse) = extractedFactors log.reverse →
        waiting ((op, r) :: log.reverse) = waiting log.reverse ++ l →
        created ((op, r) :: log.reverse) = created log.reverse ++ l →
        (extractedFactors ((op, r) :: log.reverse) ++ (waiting ((op, r) :: log.reverse)).map Prod.snd).Perm
          ((created ((op, r) :: log.reverse)).map Prod.snd) := by
      intro l hok' e1 e2 e3
      rw [e1, e2, e3, List.map_append, List.map_append, ← List.append_assoc]
      exact (ih hok').append_right _
    rcases step_quiet hs with ⟨kind, k, d, rfl⟩ | ⟨k, l, rfl⟩ | ⟨m, rfl⟩ | ⟨m, rfl⟩ | ⟨h1, h2, h3, h4, h5, _, q⟩
    · have hs' : respOf (fun _ => .done) (createFactor kind k d s) = some (r, s') := hs
      rcases (respOf_some hs').2 with ⟨_, _, rfl⟩ | ⟨_, rfl⟩
      · exact add [_] hok rfl rfl rfl
      · exact add [] hok rfl (by simp [waiting]) (by simp [created])
    · obtain ⟨rfl, _, _, hok'⟩ := hok
      exact add _ hok' rfl rfl rfl
    · obtain ⟨fs, s2, e1, t, ht, rfl⟩ := C05_extraction hr hok m
      rw [e1] at hs
      injection hs with hs
      rw [Prod.mk.injEq] at hs
      obtain ⟨rfl, rfl⟩ := hs
      show (extractedFactors log.reverse ++ t.map Prod.snd ++
        ((waiting log.reverse).filter (fun f => decide (m < f.1))).map Prod.snd).Perm ((created log.reverse).map _)
      refine List.Perm.trans ?_ (ih hok)
      rw [List.append_assoc, ← List.map_append]
      refine List.Perm.append_left _ (List.Perm.map _ ?_)
      refine (ht.perm.append_right _).trans ?_
      have : ((waiting log.reverse).filter fun f => decide (m < f.1)) =
          (waiting log.reverse).filter fun f => !decide (f.1 ≤ m) := by
        apply List.filter_congr
        intro a _
        by_cases hm : a.1 ≤ m
        · simp [hm]
        · simp [hm, not_le.1 hm]
      rw [this]
      exact List.filter_append_perm _ _
    · have hs' : respOf .values (extractNewValues er m s) = some (r, s') := hs
      rcases (respOf_some hs').2 with ⟨_, _, rfl⟩ | ⟨_, rfl⟩
      · exact add [] hok rfl (by simp [waiting]) (by simp [created])
      · exact add [] hok rfl (by simp [waiting]) (by simp [created])
    · obtain ⟨_, q2, q3, q4⟩ := spec_quiet (r := r) h1 h2 h3 log.reverse
      refine add [] (q4 hok) ?_ (by rw [q3]; simp) (by rw [q2]; simp)
      cases r <;> simp_all [extractedFactors]

/-- Appending one factor to a container permutes it behind the rest. -/
theorem flat_alter {α : Type} (m : OMap Int (List α)) (k : Int) (l : List α) :
    ((m.alter k (fun o => o.getD [] ++ l)).flatMap (fun e => e.2)).Perm (m.flatMap (fun e => e.2) ++ l) := by
  induction m with
  | nil => simp [OMap.alter]
  | cons e m ih =>
    obtain ⟨k', v⟩ := e
    simp only [OMap.alter]
    split
    · simp only [Option.getD_none, List.nil_append, List.flatMap_cons]
      exact List.perm_append_comm
    · split
      · simp only [Option.getD_some, List.flatMap_cons, List.append_assoc]
        exact List.Perm.append_left _ List.perm_append_comm
      · simp only [List.flatMap_cons, List.append_assoc]
        exact List.Perm.append_left _ ih

theorem flat_emplace {α : Type} (m : OMap Int (List α)) (k : Int) :
    (m.emplace k []).flatMap (fun e => e.2) = m.flatMap (fun e => e.2) := by
  unfold OMap.emplace
  induction m with
  | nil => simp [OMap.alter]
  | cons e m ih =>
    obtain ⟨k', v⟩ := e
    simp only [OMap.alter]
    split
    · simp
    · split
      · simp
      · simp [ih]

/-- C05 for *every* history, including those in which stereo calls failed half-way or came with decreasing keys: an
extraction with a large enough maximum key, together with all earlier ones, has handed over exactly `all_factors()`. -/
theorem C05_nothing_lost {er : EndRead} {log : Log Val D} {s : GM Val D} (h : Reaches er log s) :
    ∃ M : Int, ∀ m, M ≤ m → ∃ fs s', step er (.extractFactors m) s = some (.factors fs, s') ∧
      (extractedFactors log.reverse ++ fs).Perm (allFactors s) := by
  classical
  have inv : (extractedFactors log.reverse ++ s.newFactors.flatMap (fun e => e.2)).Perm (allFactors s) := by
    induction h with
    | init => exact List.Perm.refl _
    | @step log s s' op r hr hs ih =>
      rw [List.reverse_append, List.reverse_cons, List.reverse_nil, List.nil_append, List.singleton_append]
      let P : GM Val D → Prop := fun t =>
        (extractedFactors log.reverse ++ t.newFactors.flatMap (fun e => e.2)).Perm (allFactors t)
      have hadd : ∀ k f, Keeps P (addFactor (Val := Val) k f) := by
        intro k f t ht
        show (extractedFactors log.reverse ++ (OMap.alter t.newFactors k _).flatMap (fun e => e.2)).Perm
          ((OMap.alter t.factors k _).flatMap (fun e => e.2))
        refine (List.Perm.append_left _ (flat_alter _ _ _)).trans ?_
        refine List.Perm.trans ?_ (flat_alter _ _ _).symm
        rw [← List.append_assoc]
        exact ht.append_right _
      rcases step_quiet hs with ⟨kind, k, d, rfl⟩ | ⟨k, l, rfl⟩ | ⟨m, rfl⟩ | ⟨m, rfl⟩ | ⟨h1, h2, h3, h4, h5, _, q⟩
      · have hs' : respOf (fun _ => .done) (createFactor kind k d s) = some (r, s') := hs
        obtain ⟨e1, h2⟩ := respOf_some hs'
        have : P s' := by
          rw [e1]
          unfold createFactor
          exact Keeps.bind (Keeps.lift _) (fun _ => hadd _ _) s ih
        rcases h2 with ⟨_, _, rfl⟩ | ⟨_, rfl⟩ <;> exact this
      · have hs' : respOf (fun _ => .done) (createStereo k l s) = some (r, s') := hs
        obtain ⟨e1, h2⟩ := respOf_some hs'
        have : P s' := by
          rw [e1]
          refine keeps_createStereo_of (P := P) (fun id v => keeps_set (fun t _ _ _ ht => ht) _ _ _) (fun k f _ => hadd k f)
            (fun t _ _ _ ht => ht) ?_ ?_ k l s ih
          · intro t k ht
            show List.Perm _ ((t.factors.emplace k []).flatMap (fun e => e.2))
            rw [flat_emplace]; exact ht
          · intro t k ht
            show List.Perm (_ ++ (t.newFactors.emplace k []).flatMap (fun e => e.2)) _
            rw [flat_emplace]; exact ht
        rcases h2 with ⟨_, _, rfl⟩ | ⟨_, rfl⟩ <;> exact this
      · have hF := reaches_finv hr
        have hs' : respOf .factors (extractNewFactors m s) = some (r, s') := hs
        obtain ⟨e1, h2⟩ := respOf_some hs'
        unfold extractNewFactors at e1 h2
        rw [extractFactorsLoop_eq _ _ hF.newFactors] at e1 h2
        rcases h2 with ⟨a, ha, rfl⟩ | ⟨ha, _⟩
        · simp only [Outcome.ok.injEq] at ha
          subst ha
          subst e1
          show (extractedFactors log.reverse ++ _ ++ _).Perm (allFactors s)
          refine List.Perm.trans ?_ ih
          rw [List.append_assoc]
          refine List.Perm.append_left _ ?_
          dsimp only
          rw [← List.flatMap_append]
          refine List.Perm.flatMap_right _ ?_
          have : (s.newFactors.filter fun e => decide (m < e.1)) =
              s.newFactors.filter fun e => !decide (e.1 ≤ m) := by
            apply List.filter_congr
            intro a _
            by_cases hm : a.1 ≤ m
            · simp [hm]
            · simp [hm, not_le.1 hm]
          rw [this]
          exact List.filter_append_perm _ _
        · simp at ha
      · have hs' : respOf .values (extractNewValues er m s) = some (r, s') := hs
        obtain ⟨e1, h2⟩ := respOf_some hs'
        obtain ⟨n, l, e⟩ := extractNewValues_frame er m s
        have : P s' := by rw [e1, e]; exact ih
        rcases h2 with ⟨_, _, rfl⟩ | ⟨_, rfl⟩ <;> exact this
      · have e1 : extractedFactors ((op, r) :: log.reverse) = extractedFactors log.reverse := by
          cases r <;> simp_all [extractedFactors]
        rw [e1]
        unfold allFactors at ih ⊢
        rw [q.2.1, q.2.2.1]; exact ih
  have hF := reaches_finv h
  obtain ⟨M, hM⟩ : ∃ M : Int, ∀ e ∈ s.newFactors, e.1 ≤ M := by
    generalize s.newFactors = l
    induction l with
    | nil => exact ⟨0, by simp⟩
    | cons e l ih =>
      obtain ⟨M, hM⟩ := ih
      refine ⟨max M e.1, ?_⟩
      intro a ha
      rcases List.mem_cons.1 ha with rfl | ha
      · exact le_max_right _ _
      · exact le_trans (hM a ha) (le_max_left _ _)
  refine ⟨M, fun m hm => ⟨_, _, rfl, ?_⟩⟩
  show (_ ++ (extractFactorsLoop m s.newFactors).1).Perm _
  rw [extractFactorsLoop_eq _ _ hF.newFactors]
  dsimp only
  rw [List.filter_eq_self.2]
  · exact inv
  · intro e he; simpa using le_trans (hM e he) hm

/-! ## C06 -/

/-- C06: `all_factors()` lists all factors created, by key and then by creation, whatever was extracted before. -/
theorem C06_all_factors {er : EndRead} {log : Log Val D} {s : GM Val D} (h : Reaches er log s)
    (hok : StereoOk log.reverse) : ListsInKeyOrder (allFactors s) (created log.reverse) :=
  ⟨tag s.factors, tag_stableSort (reaches_finv h).factors (factors_invariant h hok).factors, (tag_snd _).symm⟩

/-- C06: `factors(first, last)` lists exactly those of keys `first..last`. -/
theorem C06_factors_range {er : EndRead} {log : Log Val D} {s : GM Val D} (h : Reaches er log s)
    (hok : StereoOk log.reverse) (first last : Int) :
    ListsInKeyOrder (factorsRange s first last)
      ((created log.reverse).filter (fun e => decide (first ≤ e.1 ∧ e.1 ≤ last))) := by
  refine ⟨_, (tag_stableSort (reaches_finv h).factors (factors_invariant h hok).factors).filter _, ?_⟩
  unfold factorsRange
  rw [factorsFrom_eq _ (reaches_finv h).factors]
  congr 1
  apply List.filter_congr
  intro e _
  apply decide_eq_decide.2
  omega

/-- C06: `factors_for_key(v)` lists exactly those that involve the variable `v`. -/
theorem C06_factors_for_key {er : EndRead} {log : Log Val D} {s : GM Val D} (h : Reaches er log s)
    (hok : StereoOk log.reverse) (v : Key) :
    ListsInKeyOrder (factorsForKey s v) ((created log.reverse).filter (fun e => decide (v ∈ e.2.vars))) := by
  refine ⟨_, (tag_stableSort (reaches_finv h).factors (factors_invariant h hok).factors).filter _, ?_⟩
  unfold factorsForKey
  rw [flatMap_eq_filter]
  congr 1
  apply List.filter_congr
  intro e _
  simp

end Graph

end Serpent
