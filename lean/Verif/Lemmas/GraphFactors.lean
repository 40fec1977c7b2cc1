import Verif.Lemmas.GraphExtract
import Verif.Spec.Graph

/-!
# Lemmas on the factor containers
-/

namespace Serpent

namespace Graph

open M

variable {Val D : Type}

/-- The list filed under a key (`[]` when there is none). -/
def lookup {α : Type} (m : OMap Int (List α)) (k : Int) : List α := (m.find k).getD []

theorem lookup_alter {α : Type} {m : OMap Int (List α)} (h : m.Sorted) (k k' : Int) (l : List α) :
    lookup (m.alter k (fun o => o.getD [] ++ l)) k' = if k' = k then lookup m k ++ l else lookup m k' := by
  unfold lookup
  rw [OMap.find_alter h]
  split <;> simp

theorem lookup_emplace {α : Type} {m : OMap Int (List α)} (h : m.Sorted) (k k' : Int) :
    lookup (m.emplace k []) k' = lookup m k' := by
  unfold lookup
  rw [OMap.find_emplace h]
  split
  · rename_i e; subst e; cases m.find k' <;> rfl
  · rfl

theorem keyOf_of_sym {c : Fam} {j : Int} {raw : Key} (h : sym c j = .ok raw) : raw = keyOf c j :=
  (sym_ok_iff.1 h).2.2

theorem isFirst_eq (pp : Option (OMap Int D)) (id : Int) : isFirst pp id = newlyTracked pp id := by
  unfold isFirst newlyTracked
  cases pp with
  | none => rfl
  | some m => simp [OMap.contains]

/-- Containers with factors and landmark ids are sorted. -/
structure FInv (s : GM Val D) : Prop where
  factors : s.factors.Sorted
  newFactors : s.newFactors.Sorted
  ids : s.landmarkIds.Sorted
  newIds : s.newLandmarkIds.Sorted

/-- Effect of a stereo loop that returned: which lists were appended to. -/
structure LoopEffect (s s' : GM Val D) (k : Int) (fs : List (Factor D)) (is : List Int) : Prop where
  features : s'.features = s.features
  factors : ∀ k', lookup s'.factors k' = if k' = k then lookup s.factors k ++ fs else lookup s.factors k'
  newFactors : ∀ k', lookup s'.newFactors k' = if k' = k then lookup s.newFactors k ++ fs else lookup s.newFactors k'
  ids : ∀ k', lookup s'.landmarkIds k' = if k' = k then lookup s.landmarkIds k ++ is else lookup s.landmarkIds k'
  newIds : ∀ k', lookup s'.newLandmarkIds k' =
    if k' = k then lookup s.newLandmarkIds k ++ is else lookup s.newLandmarkIds k'

theorem LoopEffect.refl (s : GM Val D) (k : Int) : LoopEffect s s k [] [] := by
  refine ⟨rfl, ?_, ?_, ?_, ?_⟩ <;> intro k' <;> split <;> simp_all

theorem LoopEffect.trans {a b c : GM Val D} {k : Int} {f g : List (Factor D)} {i j : List Int}
    (h : LoopEffect a b k f i) (h' : LoopEffect b c k g j) : LoopEffect a c k (f ++ g) (i ++ j) := by
  refine ⟨h'.features.trans h.features, ?_, ?_, ?_, ?_⟩ <;> intro k'
  · rw [h'.factors, h.factors, h.factors]; split <;> simp_all
  · rw [h'.newFactors, h.newFactors, h.newFactors]; split <;> simp_all
  · rw [h'.ids, h.ids, h.ids]; split <;> simp_all
  · rw [h'.newIds, h.newIds, h.newIds]; split <;> simp_all

theorem finv_featState {s : GM Val D} (h : FInv s) (k id : Int) (first : Bool) (xp xk l : Key) (p o : D) (v : Val) :
    FInv (featState s k id first xp xk l p o v) := by
  cases first with
  | false =>
    exact ⟨OMap.sorted_alter h.factors _ _, OMap.sorted_alter h.newFactors _ _, h.ids, h.newIds⟩
  | true =>
    exact ⟨OMap.sorted_alter (OMap.sorted_alter h.factors _ _) _ _,
      OMap.sorted_alter (OMap.sorted_alter h.newFactors _ _) _ _,
      OMap.sorted_alter h.ids _ _, OMap.sorted_alter h.newIds _ _⟩

theorem featState_effect {s : GM Val D} (h : FInv s) (k id : Int) (first : Bool) (xp xk l : Key) (p o : D) (v : Val) :
    LoopEffect s (featState s k id first xp xk l p o v) k
      ((if first then [⟨.stereo, [xp, l], p⟩] else []) ++ [⟨.stereo, [xk, l], o⟩]) (if first then [id] else []) := by
  cases first with
  | false =>
    refine ⟨rfl, ?_, ?_, ?_, ?_⟩ <;> intro k'
    · exact lookup_alter h.factors _ _ _
    · exact lookup_alter h.newFactors _ _ _
    · simp [featState, factorState, setState]; rintro rfl; rfl
    · simp [featState, factorState, setState]; rintro rfl; rfl
  | true =>
    refine ⟨rfl, ?_, ?_, ?_, ?_⟩ <;> intro k'
    · show lookup (OMap.alter (OMap.alter s.factors k _) k _) k' = _
      rw [lookup_alter (OMap.sorted_alter h.factors _ _), lookup_alter h.factors, lookup_alter h.factors]
      split <;> simp_all
    · show lookup (OMap.alter (OMap.alter s.newFactors k _) k _) k' = _
      rw [lookup_alter (OMap.sorted_alter h.newFactors _ _), lookup_alter h.newFactors, lookup_alter h.newFactors]
      split <;> simp_all
    · exact lookup_alter h.ids _ _ _
    · exact lookup_alter h.newIds _ _ _

/-- The loop over the features of the newest frame, when it returns. -/
theorem stereoLoop_effect {k : Int} {xk : Key} (hxk : sym .X k = .ok xk) (p : Val) (prev : OMap Int D)
    (pp : Option (OMap Int D)) (l : OMap Int D) (s : GM Val D) (hv : VInv s) (hF : FInv s)
    (hok : (stereoLoop k p prev pp l s).1 = .ok ()) :
    LoopEffect s (stereoLoop k p prev pp l s).2 k (stereoFactors k prev pp l) (trackedIds prev pp l) ∧
    FInv (stereoLoop k p prev pp l s).2 := by
  induction l generalizing s with
  | nil => exact ⟨LoopEffect.refl _ _, hF⟩
  | cons e l ih =>
    obtain ⟨id, obs⟩ := e
    unfold stereoLoop at hok ⊢
    rw [bind_run] at hok ⊢
    rcases stereoFeature_cases hv hxk p prev pp id obs with
      ⟨hn, e⟩ | ⟨_, e, _⟩ | ⟨e, _⟩ | ⟨po, xp, lk, bp, hpo, hxp, hl, hc, e⟩
    · rw [e] at hok ⊢
      have := ih s hv hF hok
      have e1 : stereoFactors k prev pp ((id, obs) :: l) = stereoFactors k prev pp l := by
        simp [stereoFactors, hn]
      have e2 : trackedIds prev pp ((id, obs) :: l) = trackedIds prev pp l := by
        simp [trackedIds, hn]
      rw [e1, e2]; exact this
    · rw [e] at hok; simp at hok
    · exfalso
      revert hok
      rcases hr : stereoFeature k p prev pp id obs s with ⟨o, s'⟩
      rw [hr] at e
      dsimp only at e
      subst e
      simp
    · rw [e] at hok ⊢
      have h1 := featState_effect hF k id (isFirst pp id) xp xk lk po obs (bp p obs)
      obtain ⟨h2, h3⟩ := ih _ (vinv_featState hv hl) (finv_featState hF _ _ _ _ _ _ _ _ _) hok
      refine ⟨?_, h3⟩
      have := h1.trans h2
      have e1 : stereoFactors k prev pp ((id, obs) :: l) =
          ((if isFirst pp id then [⟨.stereo, [xp, lk], po⟩] else []) ++ [⟨.stereo, [xk, lk], obs⟩]) ++
            stereoFactors k prev pp l := by
        rw [keyOf_of_sym hxk, keyOf_of_sym hl]
        simp only [stereoFactors, List.flatMap_cons, hpo, isFirst_eq]
        congr 2
        by_cases hf : newlyTracked pp id = true
        · rw [keyOf_of_sym (hxp (by rw [isFirst_eq]; exact hf))]
        · simp [hf]
      have e2 : trackedIds prev pp ((id, obs) :: l) = (if isFirst pp id then [id] else []) ++ trackedIds prev pp l := by
        simp only [trackedIds, List.filter_cons, hpo, isFirst_eq]
        by_cases hf : newlyTracked pp id = true <;> simp [hf]
      rw [e1, e2]; exact this

theorem emplace_last {ν : Type} {m : OMap Int ν} {k : Int} {v : ν} (h : ∀ e ∈ m, e.1 < k) :
    m.emplace k v = m ++ [(k, v)] := by
  unfold OMap.emplace
  induction m with
  | nil => rfl
  | cons e m ih =>
    obtain ⟨k', v'⟩ := e
    have h1 := h _ List.mem_cons_self
    simp only at h1
    simp only [OMap.alter]
    rw [if_neg (by omega), if_neg (by omega), ih (fun e he => h e (List.mem_cons_of_mem _ he))]
    rfl

theorem finv_frameState {s : GM Val D} (h : FInv s) (k : Int) (fs : OMap Int D) : FInv (frameState s k fs) :=
  ⟨OMap.sorted_emplace h.factors _ _, OMap.sorted_emplace h.newFactors _ _, h.ids, h.newIds⟩

theorem finv_loopState {s : GM Val D} (h : FInv s) (k : Int) : FInv (loopState s k) :=
  ⟨h.factors, h.newFactors, OMap.sorted_emplace h.ids _ _, OMap.sorted_emplace h.newIds _ _⟩

/-- Sortedness survives a stereo call on every path. -/
theorem finv_createStereo {s : GM Val D} (hF : FInv s) (k : Int) (fs : OMap Int D) : FInv (createStereo k fs s).2 := by
  have hset : ∀ id v, Keeps FInv (set (Val := Val) (D := D) .S id v) :=
    fun id v => keeps_set (fun s v n u h => ⟨h.factors, h.newFactors, h.ids, h.newIds⟩) _ _ _
  have hpush : ∀ k i id d, Keeps FInv (pushStereo (Val := Val) (D := D) k i id d) := by
    intro k i id d
    unfold pushStereo
    refine Keeps.bind (Keeps.lift _) fun _ => Keeps.bind (Keeps.lift _) fun _ => ?_
    exact fun s h => ⟨OMap.sorted_alter h.factors _ _, OMap.sorted_alter h.newFactors _ _, h.ids, h.newIds⟩
  have hfirst : ∀ k id d, Keeps FInv (stereoFirst (Val := Val) (D := D) k id d) := by
    intro k id d
    unfold stereoFirst
    refine Keeps.bind (hpush _ _ _ _) fun _ => ?_
    refine Keeps.bind (Keeps.modify fun s h => ⟨h.factors, h.newFactors, OMap.sorted_alter h.ids _ _, h.newIds⟩)
      fun _ => ?_
    exact Keeps.modify fun s h => ⟨h.factors, h.newFactors, h.ids, OMap.sorted_alter h.newIds _ _⟩
  have hloop : ∀ k p prev pp l, Keeps FInv (stereoLoop (Val := Val) (D := D) k p prev pp l) := by
    intro k p prev pp l
    induction l with
    | nil => exact Keeps.pure _
    | cons e l ih =>
      obtain ⟨id, obs⟩ := e
      unfold stereoLoop
      refine Keeps.bind ?_ fun _ => ih
      unfold stereoFeature
      split
      · exact Keeps.pure _
      · refine Keeps.bind ?_ fun _ => ?_
        · unfold stereoPrev
          split
          · exact hfirst _ _ _
          · exact Keeps.ite (Keeps.pure _) (hfirst _ _ _)
        · unfold stereoCurrent
          refine Keeps.bind Keeps.get fun s0 => ?_
          split
          · exact Keeps.ub
          · exact Keeps.bind (hset _ _) fun _ => hpush _ _ _ _
  rcases createStereo_cases k fs s with ⟨_, e⟩ | ⟨_, _, e⟩ | ⟨_, e⟩ |
    ⟨xk, p, c1, c2, cur, prev, older, _, _, _, _, _, e⟩
  · rw [e]; exact hF
  · rw [e]; exact finv_frameState hF _ _
  · rw [e]; exact finv_frameState hF _ _
  · rw [e]; exact hloop _ _ _ _ _ _ (finv_loopState (finv_frameState hF _ _) _)

/-- A stereo call with a key above all earlier frames, when it returns. -/
theorem createStereo_effect {s : GM Val D} (hv : VInv s) (hF : FInv s) (k : Int) (l : OMap Int D)
    (hk : ∀ e ∈ s.features, e.1 < k) (hok : (createStereo k l s).1 = .ok ()) :
    (createStereo k l s).2.features = s.features ++ [(k, l)] ∧
    LoopEffect (frameState s k l) (createStereo k l s).2 k (frameFactors k l s.features.reverse)
      (frameIds l s.features.reverse) := by
  have hemp : s.features.emplace k l = s.features ++ [(k, l)] := emplace_last hk
  have hlook : ∀ k', lookup (loopState (frameState s k l) k).factors k' = lookup (frameState s k l).factors k' :=
    fun _ => rfl
  rcases createStereo_cases k l s with ⟨_, e⟩ | ⟨_, h1, e⟩ | ⟨_, e⟩ |
    ⟨xk, p, c1, c2, cur, prev, older, hc, hrev, hxk, _, _, e⟩
  · rw [e] at hok; simp at hok
  · rw [e]
    have hnil : s.features = [] := by
      rw [hemp] at h1; simp at h1; exact h1
    refine ⟨by simp [frameState, hemp], ?_⟩
    rw [hnil]
    exact LoopEffect.refl _ _
  · rw [e] at hok; simp at hok
  · rw [e] at hok ⊢
    rw [hemp, List.reverse_append, List.reverse_singleton, List.singleton_append] at hrev
    simp only [List.cons.injEq, Prod.mk.injEq] at hrev
    obtain ⟨⟨rfl, rfl⟩, hrev⟩ := hrev
    have hv' : VInv (loopState (frameState s k l) k) := ⟨hv.values, hv.newValues, hv.coherent, hv.symbols⟩
    have hF1 := finv_frameState hF k l
    obtain ⟨h1, _⟩ := stereoLoop_effect hxk p prev _ l _ hv' (finv_loopState hF1 k) hok
    refine ⟨by rw [h1.features]; exact hemp, ?_⟩
    rw [hrev]
    refine ⟨h1.features, h1.factors, h1.newFactors, ?_, ?_⟩
    · intro k'
      rw [h1.ids]
      have : ∀ k', lookup (loopState (frameState s k l) k).landmarkIds k' =
        lookup (frameState s k l).landmarkIds k' := fun k' => lookup_emplace hF1.ids k k'
      simp only [this]
      rfl
    · intro k'
      rw [h1.newIds]
      have : ∀ k', lookup (loopState (frameState s k l) k).newLandmarkIds k' =
        lookup (frameState s k l).newLandmarkIds k' := fun k' => lookup_emplace hF1.newIds k k'
      simp only [this]
      rfl

theorem syms_ok {l : List (Fam × Int)} {ks : List Key} (h : syms l = .ok ks) :
    ks = l.map (fun v => keyOf v.1 v.2) := by
  induction l generalizing ks with
  | nil => simp [syms] at h; simp [h]
  | cons e l ih =>
    obtain ⟨c, j⟩ := e
    simp only [syms] at h
    cases hk : sym c j with
    | throws => simp [hk] at h
    | ub => simp [hk] at h
    | ok k =>
      cases hs : syms l with
      | throws => simp [hk, hs] at h
      | ub => simp [hk, hs] at h
      | ok ks' =>
        simp [hk, hs] at h
        subst h
        simp [keyOf_of_sym hk, ih hs]

theorem syms_ne_ub (l : List (Fam × Int)) : syms l ≠ .ub := by
  induction l with
  | nil => simp [syms]
  | cons e l ih =>
    obtain ⟨c, j⟩ := e
    simp only [syms]
    cases hk : sym c j with
    | throws => simp
    | ub => exact absurd hk (sym_ne_ub _ _)
    | ok k =>
      cases hs : syms l with
      | throws => simp
      | ub => exact absurd hs ih
      | ok ks => simp

theorem createFactor_cases (kind : PlainKind) (k : Int) (d : D) (s : GM Val D) :
    createFactor kind k d s = (.throws, s) ∨
    createFactor kind k d s = (.ok (), factorState s k ⟨.plain kind, specVars kind k, d⟩) := by
  unfold createFactor
  cases h : syms (factorVars kind k) with
  | throws => left; rfl
  | ub => exact absurd h (syms_ne_ub _)
  | ok ks =>
    right
    have e : ks = specVars kind k := by rw [syms_ok h]; cases kind <;> rfl
    rw [e]; rfl

/-! ### Extraction loops -/

theorem extractFactorsLoop_eq (m : Int) (l : OMap Int (List (Factor D))) (hs : l.Sorted) :
    extractFactorsLoop m l =
      ((l.filter (fun e => decide (e.1 ≤ m))).flatMap (fun e => e.2), l.filter (fun e => decide (m < e.1))) := by
  induction l with
  | nil => rfl
  | cons e l ih =>
    obtain ⟨k, fs⟩ := e
    have hs' := OMap.sorted_cons.1 hs
    simp only [extractFactorsLoop]
    split
    · rename_i hk
      rw [ih hs'.2]
      simp [hk, not_lt.2 hk]
    · rename_i hk
      have hall : ∀ e ∈ (k, fs) :: l, m < e.1 := by
        intro e he
        rcases List.mem_cons.1 he with rfl | he
        · exact not_le.1 hk
        · exact lt_trans (not_le.1 hk) (hs'.1 e he)
      rw [List.filter_eq_nil_iff.2, List.filter_eq_self.2]
      · rfl
      · intro e he; simpa using hall e he
      · intro e he; simpa using hall e he

theorem extractKeysLoop_eq (m : Int) (l : OMap Int (List Key)) (hs : l.Sorted) :
    extractKeysLoop m l =
      ((l.filter (fun e => decide (e.1 ≤ m))).flatMap (fun e => e.2), l.filter (fun e => decide (m < e.1))) := by
  induction l with
  | nil => rfl
  | cons e l ih =>
    obtain ⟨k, fs⟩ := e
    have hs' := OMap.sorted_cons.1 hs
    simp only [extractKeysLoop]
    split
    · rename_i hk
      rw [ih hs'.2]
      simp [hk, not_lt.2 hk]
    · rename_i hk
      have hall : ∀ e ∈ (k, fs) :: l, m < e.1 := by
        intro e he
        rcases List.mem_cons.1 he with rfl | he
        · exact not_le.1 hk
        · exact lt_trans (not_le.1 hk) (hs'.1 e he)
      rw [List.filter_eq_nil_iff.2, List.filter_eq_self.2]
      · rfl
      · intro e he; simpa using hall e he
      · intro e he; simpa using hall e he

theorem lookup_filter {α : Type} (m : OMap Int (List α)) (p : Int → Bool) (k : Int) :
    lookup (m.filter (fun e => p e.1)) k = if p k then lookup m k else [] := by
  unfold lookup
  rw [OMap.find_filter_key]
  split <;> rfl

/-! ### Sortedness along a history -/

theorem finv_of_eq {s s' : GM Val D} (h : FInv s) (h1 : s'.factors = s.factors) (h2 : s'.newFactors = s.newFactors)
    (h3 : s'.landmarkIds = s.landmarkIds) (h4 : s'.newLandmarkIds = s.newLandmarkIds) : FInv s' :=
  ⟨by rw [h1]; exact h.factors, by rw [h2]; exact h.newFactors, by rw [h3]; exact h.ids, by rw [h4]; exact h.newIds⟩

theorem step_finv {er : EndRead} {op : Op Val D} {s s' : GM Val D} {r : Resp Val D}
    (h : step er op s = some (r, s')) (hF : FInv s) : FInv s' := by
  have hval : IndepVals (FInv (Val := Val) (D := D)) := fun s v n u h => finv_of_eq h rfl rfl rfl rfl
  rw [step_state h]
  cases op with
  | setNamedKey n k p =>
    simp only [stateAfter, setNamedKey, modify_run]
    split <;> exact finv_of_eq hF rfl rfl rfl rfl
  | increment n =>
    simp only [stateAfter, increment]
    split <;> exact finv_of_eq hF rfl rfl rfl rfl
  | setPose k v => exact keeps_set hval _ _ _ _ hF
  | setVelocity k v => exact keeps_set hval _ _ _ _ hF
  | setImuBias k v => exact keeps_set hval _ _ _ _ hF
  | setBarometerBias k v => exact keeps_set hval _ _ _ _ hF
  | setNavstate k p v =>
    exact Keeps.bind (m := set .X k p) (keeps_set hval _ _ _) (fun _ => keeps_set hval _ _ _) _ hF
  | setTimestamp k t => exact finv_of_eq hF rfl rfl rfl rfl
  | create kind k d =>
    simp only [stateAfter]
    rcases createFactor_cases kind k d s with e | e
    · rw [e]; exact hF
    · rw [e]; exact ⟨OMap.sorted_alter hF.factors _ _, OMap.sorted_alter hF.newFactors _ _, hF.ids, hF.newIds⟩
  | stereo k fs => exact finv_createStereo hF k fs
  | setExtrinsic => exact finv_of_eq hF rfl rfl rfl rfl
  | setCalibration bp => exact finv_of_eq hF rfl rfl rfl rfl
  | updateFromValues vs => exact keeps_updateFromValues hval _ _ hF
  | extractFactors m =>
    simp only [stateAfter, extractNewFactors]
    rw [extractFactorsLoop_eq _ _ hF.newFactors]
    exact ⟨hF.factors, OMap.sorted_filter hF.newFactors _, hF.ids, hF.newIds⟩
  | extractValues m =>
    have h1 := extractNewValues_newIds er m s
    obtain ⟨n, l, e⟩ := extractNewValues_frame er m s
    simp only [stateAfter]
    rw [e] at h1 ⊢
    exact ⟨hF.factors, hF.newFactors, hF.ids, List.Pairwise.sublist h1 hF.newIds⟩
  | extractKeys m => exact finv_of_eq hF rfl rfl rfl rfl

theorem finv_init : FInv ({} : GM Val D) :=
  ⟨OMap.sorted_nil, OMap.sorted_nil, OMap.sorted_nil, OMap.sorted_nil⟩

theorem reaches_finv {er : EndRead} {log : Log Val D} {s : GM Val D} (h : Reaches er log s) : FInv s := by
  induction h with
  | init => exact finv_init
  | step _ hs ih => exact step_finv hs ih

/-! ### Tagging -/

/-- The entries of a map of lists, each with its key. -/
def tag {α : Type} (m : OMap Int (List α)) : List (Int × α) := m.flatMap (fun e => e.2.map (fun a => (e.1, a)))

theorem tag_snd {α : Type} (m : OMap Int (List α)) : (tag m).map Prod.snd = m.flatMap (fun e => e.2) := by
  unfold tag
  rw [List.map_flatMap]
  simp

theorem mem_tag {α : Type} {m : OMap Int (List α)} {x : Int × α} (h : x ∈ tag m) : ∃ e ∈ m, x.1 = e.1 := by
  unfold tag at h
  rw [List.mem_flatMap] at h
  obtain ⟨e, he, hx⟩ := h
  rw [List.mem_map] at hx
  obtain ⟨a, _, rfl⟩ := hx
  exact ⟨e, he, rfl⟩

theorem tag_sorted {α : Type} {m : OMap Int (List α)} (h : m.Sorted) :
    (tag m).Pairwise (fun a b => a.1 ≤ b.1) := by
  induction m with
  | nil => exact List.Pairwise.nil
  | cons e m ih =>
    have h' := OMap.sorted_cons.1 h
    unfold tag
    rw [List.flatMap_cons, List.pairwise_append]
    refine ⟨?_, ih h'.2, ?_⟩
    · rw [List.pairwise_map]
      exact List.pairwise_of_forall (fun _ _ => le_refl _)
    · intro a ha b hb
      rw [List.mem_map] at ha
      obtain ⟨_, _, rfl⟩ := ha
      obtain ⟨e', he', hb'⟩ := mem_tag hb
      rw [hb']
      exact le_of_lt (h'.1 e' he')

theorem tag_filter {α : Type} {m : OMap Int (List α)} (h : m.Sorted) (k : Int) :
    (tag m).filter (fun e => decide (e.1 = k)) = (lookup m k).map (fun a => (k, a)) := by
  induction m with
  | nil => rfl
  | cons e m ih =>
    have h' := OMap.sorted_cons.1 h
    have e0 : tag (e :: m) = e.2.map (fun a => (e.1, a)) ++ tag m := rfl
    rw [e0, List.filter_append, ih h'.2]
    unfold lookup
    rw [OMap.find_cons]
    by_cases hk : k = e.1
    · subst hk
      rw [OMap.find_eq_none_of_lt h'.1]
      simp [List.filter_eq_self.2]
    · have : List.filter (fun e => decide (e.1 = k)) (List.map (fun a => (e.1, a)) e.2) = [] := by
        rw [List.filter_eq_nil_iff]
        intro a ha
        rw [List.mem_map] at ha
        obtain ⟨_, _, rfl⟩ := ha
        simpa using fun h => hk h.symm
      rw [this, if_neg hk]
      rfl

/-- A sorted map of lists whose lists are those of `w` lists `w` in key order. -/
theorem tag_stableSort {α : Type} {m : OMap Int (List α)} (h : m.Sorted) {w : List (Int × α)}
    (hw : ∀ k, lookup m k = (w.filter (fun e => decide (e.1 = k))).map Prod.snd) : StableSort (tag m) w := by
  refine ⟨tag_sorted h, fun k => ?_⟩
  rw [tag_filter h, hw, List.map_map]
  have : ∀ l : List (Int × α), (∀ e ∈ l, e.1 = k) → l.map ((fun a => (k, a)) ∘ Prod.snd) = l := by
    intro l hl
    conv => rhs; rw [← List.map_id l]
    apply List.map_congr_left
    intro e he
    have := hl e he
    obtain ⟨a, b⟩ := e
    simp at this
    simp [this]
  apply this
  intro e he
  have := (List.mem_filter.1 he).2
  simpa using this

/-- A stable sort is a permutation. -/
theorem StableSort.perm {α : Type} [DecidableEq α] {t w : List (Int × α)} (h : StableSort t w) : t.Perm w := by
  rw [List.perm_iff_count]
  intro a
  have e : ∀ l : List (Int × α), l.count a = (l.filter (fun e => decide (e.1 = a.1))).count a := by
    intro l
    rw [List.count_filter]
    simp
  rw [e t, e w, h.2]

/-! ## Invariants -/

/-- A predicate kept by all that a stereo call does is kept by the call. -/
theorem keeps_createStereo_of {P : GM Val D → Prop} (hset : ∀ id v, Keeps P (set (D := D) .S id v))
    (hadd : ∀ k f, f.kind = .stereo → Keeps P (addFactor (Val := Val) (D := D) k f)) (hs : IndepStereo P)
    (hemp1 : ∀ (s : GM Val D) k, P s → P { s with factors := s.factors.emplace k [] })
    (hemp2 : ∀ (s : GM Val D) k, P s → P { s with newFactors := s.newFactors.emplace k [] })
    (k : Int) (fs : OMap Int D) : Keeps P (createStereo (Val := Val) k fs) := by
  have hpush : ∀ k i id d, Keeps P (pushStereo (Val := Val) (D := D) k i id d) := by
    intro k i id d
    unfold pushStereo
    exact Keeps.bind (Keeps.lift _) fun _ => Keeps.bind (Keeps.lift _) fun _ => hadd _ _ rfl
  have hfirst : ∀ k id d, Keeps P (stereoFirst (Val := Val) (D := D) k id d) := by
    intro k id d
    unfold stereoFirst
    refine Keeps.bind (hpush _ _ _ _) fun _ => ?_
    refine Keeps.bind (Keeps.modify fun s h => hs s s.features _ s.newLandmarkIds h) fun _ => ?_
    exact Keeps.modify fun s h => hs s s.features s.landmarkIds _ h
  have hloop : ∀ k p prev pp l, Keeps P (stereoLoop (Val := Val) (D := D) k p prev pp l) := by
    intro k p prev pp l
    induction l with
    | nil => exact Keeps.pure _
    | cons e l ih =>
      obtain ⟨id, obs⟩ := e
      unfold stereoLoop
      refine Keeps.bind ?_ fun _ => ih
      unfold stereoFeature
      split
      · exact Keeps.pure _
      · refine Keeps.bind ?_ fun _ => ?_
        · unfold stereoPrev
          split
          · exact hfirst _ _ _
          · exact Keeps.ite (Keeps.pure _) (hfirst _ _ _)
        · unfold stereoCurrent
          refine Keeps.bind Keeps.get fun s0 => ?_
          split
          · exact Keeps.ub
          · exact Keeps.bind (hset _ _) fun _ => hpush _ _ _ _
  unfold createStereo
  refine Keeps.bind Keeps.get fun s0 => ?_
  refine Keeps.ite Keeps.throw ?_
  refine Keeps.bind (Keeps.modify fun s h => hs s _ s.landmarkIds s.newLandmarkIds h) fun _ => ?_
  refine Keeps.bind (Keeps.modify fun s h => hemp1 s _ h) fun _ => ?_
  refine Keeps.bind (Keeps.modify fun s h => hemp2 s _ h) fun _ => ?_
  refine Keeps.bind Keeps.get fun s1 => ?_
  split
  · refine Keeps.bind (Keeps.lift _) fun _ => ?_
    refine Keeps.ite Keeps.throw ?_
    refine Keeps.bind (keeps_stereoCameraPose _) fun _ => ?_
    refine Keeps.bind (Keeps.modify fun s h => hs s s.features _ s.newLandmarkIds h) fun _ => ?_
    refine Keeps.bind (Keeps.modify fun s h => hs s s.features s.landmarkIds _ h) fun _ => ?_
    exact hloop _ _ _ _ _
  · exact Keeps.pure _

/-- The four kinds of calls, as far as factors and stereo bookkeeping are concerned. -/
theorem step_quiet {er : EndRead} {op : Op Val D} {s s' : GM Val D} {r : Resp Val D}
    (h : step er op s = some (r, s')) :
    (∃ kind k d, op = .create kind k d) ∨ (∃ k l, op = .stereo k l) ∨ (∃ m, op = .extractFactors m) ∨
    (∃ m, op = .extractValues m) ∨
    ((∀ k l, op ≠ .stereo k l) ∧ (∀ kind k d, op ≠ .create kind k d) ∧ (∀ m, op ≠ .extractFactors m) ∧
      (∀ m, op ≠ .extractValues m) ∧ (∀ fs, r ≠ .factors fs) ∧ (∀ vs, r ≠ .values vs) ∧
      s'.features = s.features ∧ s'.factors = s.factors ∧ s'.newFactors = s.newFactors ∧
      s'.landmarkIds = s.landmarkIds ∧ s'.newLandmarkIds = s.newLandmarkIds) := by
  let P : GM Val D → Prop := fun t => t.features = s.features ∧ t.factors = s.factors ∧
    t.newFactors = s.newFactors ∧ t.landmarkIds = s.landmarkIds ∧ t.newLandmarkIds = s.newLandmarkIds
  have hP : P s := ⟨rfl, rfl, rfl, rfl, rfl⟩
  have hv : IndepVals P := fun t v n u h => h
  have key : ∀ m : M (GM Val D) Unit, step er op s = respOf (fun _ => .done) (m s) → Keeps P m →
      ((∀ k l, op ≠ .stereo k l) ∧ (∀ kind k d, op ≠ .create kind k d) ∧ (∀ m, op ≠ .extractFactors m) ∧
      (∀ m, op ≠ .extractValues m)) →
      (∃ kind k d, op = .create kind k d) ∨ (∃ k l, op = .stereo k l) ∨ (∃ m, op = .extractFactors m) ∨
    (∃ m, op = .extractValues m) ∨
    ((∀ k l, op ≠ .stereo k l) ∧ (∀ kind k d, op ≠ .create kind k d) ∧ (∀ m, op ≠ .extractFactors m) ∧
      (∀ m, op ≠ .extractValues m) ∧ (∀ fs, r ≠ .factors fs) ∧ (∀ vs, r ≠ .values vs) ∧ P s') := by
    intro m e hm hop
    rw [e] at h
    obtain ⟨e1, h2⟩ := respOf_some h
    have := hm s hP
    rw [← e1] at this
    refine Or.inr (Or.inr (Or.inr (Or.inr ⟨hop.1, hop.2.1, hop.2.2.1, hop.2.2.2, ?_, ?_, this⟩)))
    · rcases h2 with ⟨_, _, e⟩ | ⟨_, e⟩ <;> (rw [e]; simp)
    · rcases h2 with ⟨_, _, e⟩ | ⟨_, e⟩ <;> (rw [e]; simp)
  cases op with
  | setNamedKey n k p =>
    refine key (setNamedKey n k p) rfl ?_ (by simp)
    refine Keeps.modify fun t ht => ?_
    split <;> exact ht
  | increment n =>
    refine key (increment n) rfl ?_ (by simp)
    intro t ht
    unfold increment
    split <;> exact ht
  | setPose k v => exact key (set .X k v) rfl (keeps_set hv _ _ _) (by simp)
  | setVelocity k v => exact key (set .V k v) rfl (keeps_set hv _ _ _) (by simp)
  | setImuBias k v => exact key (set .B k v) rfl (keeps_set hv _ _ _) (by simp)
  | setBarometerBias k v => exact key (set .P k v) rfl (keeps_set hv _ _ _) (by simp)
  | setNavstate k p v =>
    exact key (setNavstate k p v) rfl (Keeps.bind (m := set .X k p) (keeps_set hv _ _ _) fun _ => keeps_set hv _ _ _)
      (by simp)
  | setTimestamp k t => exact key (setTimestamp k t) rfl (Keeps.modify fun t ht => ht) (by simp)
  | create kind k d => exact Or.inl ⟨_, _, _, rfl⟩
  | stereo k fs => exact Or.inr (Or.inl ⟨_, _, rfl⟩)
  | setExtrinsic => exact key setExtrinsic rfl (Keeps.modify fun t ht => ht) (by simp)
  | setCalibration bp => exact key (setCalibration bp) rfl (Keeps.modify fun t ht => ht) (by simp)
  | updateFromValues vs => exact key (updateFromValues vs) rfl (keeps_updateFromValues hv _) (by simp)
  | extractFactors m => exact Or.inr (Or.inr (Or.inl ⟨_, rfl⟩))
  | extractValues m => exact Or.inr (Or.inr (Or.inr (Or.inl ⟨_, rfl⟩)))
  | extractKeys m =>
    have hs' : respOf .keys (extractUnmarginalisedKeys m s) = some (r, s') := h
    obtain ⟨e1, h2⟩ := respOf_some hs'
    refine Or.inr (Or.inr (Or.inr (Or.inr ⟨by simp, by simp, by simp, by simp, ?_, ?_, ?_⟩)))
    · rcases h2 with ⟨_, _, e⟩ | ⟨_, e⟩ <;> (rw [e]; simp)
    · rcases h2 with ⟨_, _, e⟩ | ⟨_, e⟩ <;> (rw [e]; simp)
    · rw [e1]; exact ⟨rfl, rfl, rfl, rfl, rfl⟩

/-- Calls that are not stereo calls, factor creations or extractions leave the specification's lists unchanged. -/
theorem spec_quiet {op : Op Val D} {r : Resp Val D} (h1 : ∀ k l, op ≠ .stereo k l)
    (h2 : ∀ kind k d, op ≠ .create kind k d) (h3 : ∀ m, op ≠ .extractFactors m)
    (log : List (Op Val D × Resp Val D)) :
    frames ((op, r) :: log) = frames log ∧ created ((op, r) :: log) = created log ∧
    waiting ((op, r) :: log) = waiting log ∧ (StereoOk ((op, r) :: log) → StereoOk log) := by
  cases op <;> cases r <;> simp_all [frames, created, waiting, StereoOk]

theorem lookup_append_frame {s : GM Val D} (hF : FInv s) (k : Int) (l : OMap Int D) :
    (∀ k', lookup (frameState s k l).factors k' = lookup s.factors k') ∧
    (∀ k', lookup (frameState s k l).newFactors k' = lookup s.newFactors k') ∧
    (frameState s k l).landmarkIds = s.landmarkIds ∧ (frameState s k l).newLandmarkIds = s.newLandmarkIds :=
  ⟨fun k' => lookup_emplace hF.factors k k', fun k' => lookup_emplace hF.newFactors k k', rfl, rfl⟩

theorem filter_tagged {α : Type} (k k' : Int) (l : List α) :
    ((l.map (fun f => (k, f))).filter (fun e => decide (e.1 = k'))).map Prod.snd = if k' = k then l else [] := by
  split
  · rename_i h; subst h
    rw [List.filter_eq_self.2 (by simp), List.map_map]
    simp
  · rename_i h
    rw [List.filter_eq_nil_iff.2]
    · rfl
    · intro e he
      rw [List.mem_map] at he
      obtain ⟨_, _, rfl⟩ := he
      simpa using fun e => h e.symm

/-- What the containers hold, in terms of the history. -/
structure FactorsAre (s : GM Val D) (log : List (Op Val D × Resp Val D)) : Prop where
  features : s.features.reverse = frames log
  factors : ∀ k, lookup s.factors k = ((created log).filter (fun e => decide (e.1 = k))).map Prod.snd
  newFactors : ∀ k, lookup s.newFactors k = ((waiting log).filter (fun e => decide (e.1 = k))).map Prod.snd

theorem factors_invariant {er : EndRead} {log : Log Val D} {s : GM Val D} (h : Reaches er log s)
    (hok : StereoOk log.reverse) : FactorsAre s log.reverse := by
  induction h with
  | init => exact ⟨rfl, fun _ => rfl, fun _ => rfl⟩
  | @step log s s' op r hr hs ih =>
    have hF := reaches_finv hr
    rw [List.reverse_append, List.reverse_cons, List.reverse_nil, List.nil_append, List.singleton_append] at hok ⊢
    rcases step_quiet hs with ⟨kind, k, d, rfl⟩ | ⟨k, l, rfl⟩ | ⟨m, rfl⟩ | ⟨m, rfl⟩ | ⟨h1, h2, h3, h4, _, _, q⟩
    · have ih := ih hok
      have hs' : respOf (fun _ => .done) (createFactor kind k d s) = some (r, s') := hs
      obtain ⟨e1, h2⟩ := respOf_some hs'
      rcases createFactor_cases kind k d s with e | e
      · rw [e] at e1 h2
        rcases h2 with ⟨_, h2, _⟩ | ⟨_, rfl⟩
        · simp at h2
        · rw [e1]; exact ⟨ih.features, ih.factors, ih.newFactors⟩
      · rw [e] at e1 h2
        rcases h2 with ⟨_, _, rfl⟩ | ⟨h2, _⟩
        · rw [e1]
          refine ⟨ih.features, fun k' => ?_, fun k' => ?_⟩
          · show lookup (OMap.alter s.factors k _) k' = ((created log.reverse ++ _).filter _).map _
            rw [lookup_alter hF.factors, List.filter_append, List.map_append, ← ih.factors k',
              ← List.map_singleton (f := fun f => (k, f)), filter_tagged]
            split
            · rename_i e; rw [e]
            · simp
          · show lookup (OMap.alter s.newFactors k _) k' = ((waiting log.reverse ++ _).filter _).map _
            rw [lookup_alter hF.newFactors, List.filter_append, List.map_append, ← ih.newFactors k',
              ← List.map_singleton (f := fun f => (k, f)), filter_tagged]
            split
            · rename_i e; rw [e]
            · simp
        · simp at h2
    · obtain ⟨rfl, hsorted, hk, hok'⟩ := hok
      have ih := ih hok'
      have hs' : respOf (fun _ => .done) (createStereo k l s) = some (.done, s') := hs
      obtain ⟨e1, h2⟩ := respOf_some hs'
      rcases h2 with ⟨_, h2, _⟩ | ⟨_, h2⟩
      · obtain ⟨f1, f2⟩ := createStereo_effect (reaches_vinv hr) hF k l (by
          intro e he
          exact hk e (by rw [← ih.features]; exact List.mem_reverse.2 he)) h2
        obtain ⟨g1, g2, _, _⟩ := lookup_append_frame hF k l
        rw [e1]
        refine ⟨?_, fun k' => ?_, fun k' => ?_⟩
        · rw [f1, List.reverse_append, List.reverse_singleton, List.singleton_append, ih.features]; rfl
        · show _ = ((created log.reverse ++ _).filter _).map _
          rw [f2.factors, g1, g1, List.filter_append, List.map_append, ← ih.factors k', filter_tagged, ih.features]
          split
          · rename_i e; rw [e]
          · simp
        · show _ = ((waiting log.reverse ++ _).filter _).map _
          rw [f2.newFactors, g2, g2, List.filter_append, List.map_append, ← ih.newFactors k', filter_tagged,
            ih.features]
          split
          · rename_i e; rw [e]
          · simp
      · simp at h2
    · have ih := ih hok
      rw [step_state hs]
      refine ⟨ih.features, ?_, fun k => ?_⟩
      · intro k
        have : created ((Op.extractFactors m, r) :: log.reverse) = created log.reverse := by cases r <;> rfl
        rw [this]; exact ih.factors k
      · have : waiting ((Op.extractFactors m, r) :: log.reverse) =
          (waiting log.reverse).filter (fun f => decide (m < f.1)) := by cases r <;> rfl
        rw [this]
        simp only [stateAfter, extractNewFactors]
        rw [extractFactorsLoop_eq _ _ hF.newFactors]
        dsimp only
        rw [lookup_filter s.newFactors (fun j => decide (m < j)), ih.newFactors, List.filter_filter]
        by_cases hk : m < k
        · simp only [hk, decide_true, if_true]
          congr 1
          apply List.filter_congr
          intro e _
          by_cases he : e.1 = k
          · simp [he, hk]
          · simp [he]
        · rw [if_neg (by simpa using hk)]
          symm
          rw [List.map_eq_nil_iff, List.filter_eq_nil_iff]
          intro e _
          simp only [Bool.and_eq_true, decide_eq_true_eq, not_and]
          rintro rfl; exact hk
    · have ih := ih hok
      rw [step_state hs]
      obtain ⟨n, l, e⟩ := extractNewValues_frame er m s
      obtain ⟨q1, q2, q3, _⟩ := spec_quiet (op := .extractValues m) (r := r) (by simp) (by simp) (by simp) log.reverse
      simp only [stateAfter]
      rw [e]
      exact ⟨by rw [q1]; exact ih.features, by rw [q2]; exact ih.factors, by rw [q3]; exact ih.newFactors⟩
    · obtain ⟨q1, q2, q3, q4⟩ := spec_quiet (r := r) h1 h2 h3 log.reverse
      have ih := ih (q4 hok)
      exact ⟨by rw [q1, q.1]; exact ih.features, by rw [q2, q.2.1]; exact ih.factors,
        by rw [q3, q.2.2.1]; exact ih.newFactors⟩

/-- Landmark ids started per key. -/
theorem landmarks_invariant {er : EndRead} {log : Log Val D} {s : GM Val D} (h : Reaches er log s)
    (hok : StereoOk log.reverse) :
    ∀ k, lookup s.landmarkIds k =
      ((tracks (frames log.reverse)).filter (fun e => decide (e.1 = k))).map Prod.snd := by
  induction h with
  | init => exact fun _ => rfl
  | @step log s s' op r hr hs ih =>
    have hF := reaches_finv hr
    rw [List.reverse_append, List.reverse_cons, List.reverse_nil, List.nil_append, List.singleton_append] at hok ⊢
    have quiet : (∀ k l, op ≠ .stereo k l) → s'.landmarkIds = s.landmarkIds →
        ∀ k, lookup s'.landmarkIds k = ((tracks (frames ((op, r) :: log.reverse))).filter
          (fun e => decide (e.1 = k))).map Prod.snd := by
      intro hop e
      have h1 : frames ((op, r) :: log.reverse) = frames log.reverse := by
        cases op <;> cases r <;> simp_all [frames]
      have h2 : StereoOk log.reverse := by
        cases op <;> cases r <;> simp_all [StereoOk]
      rw [h1, e]; exact ih h2
    rcases step_quiet hs with ⟨kind, k, d, rfl⟩ | ⟨k, l, rfl⟩ | ⟨m, rfl⟩ | ⟨m, rfl⟩ | ⟨h1, h2, h3, h4, _, _, q⟩
    · refine quiet (by simp) ?_
      rw [step_state hs]
      exact keeps_createFactor (P := fun t : GM Val D => t.landmarkIds = s.landmarkIds) (fun _ _ _ h => h) _ _ _ _ rfl
    · obtain ⟨rfl, hsorted, hk, hok'⟩ := hok
      have ih := ih hok'
      have hfi := factors_invariant hr hok'
      have hs' : respOf (fun _ => .done) (createStereo k l s) = some (.done, s') := hs
      obtain ⟨e1, h2⟩ := respOf_some hs'
      rcases h2 with ⟨_, h2, _⟩ | ⟨_, h2⟩
      · obtain ⟨f1, f2⟩ := createStereo_effect (reaches_vinv hr) hF k l (by
          intro e he
          exact hk e (by rw [← hfi.features]; exact List.mem_reverse.2 he)) h2
        obtain ⟨_, _, g1, _⟩ := lookup_append_frame hF k l
        rw [e1]
        intro k'
        show _ = ((tracks (frames log.reverse) ++ _).filter _).map _
        rw [f2.ids, g1, List.filter_append, List.map_append, ← ih k', filter_tagged, hfi.features]
        split
        · rename_i e; rw [e]
        · simp
      · simp at h2
    · refine quiet (by simp) ?_
      rw [step_state hs]; rfl
    · refine quiet (by simp) ?_
      rw [step_state hs]
      obtain ⟨n, l, e⟩ := extractNewValues_frame er m s
      simp only [stateAfter]
      rw [e]
    · exact quiet h1 q.2.2.2.1

/-- The loop over the features gives a position to exactly the features seen in both frames. -/
theorem stereoLoop_landmarks {k : Int} {xk : Key} (hxk : sym .X k = .ok xk) (p : Val) (prev : OMap Int D)
    (pp : Option (OMap Int D)) (l : OMap Int D) (s : GM Val D) (hv : VInv s)
    (hok : (stereoLoop k p prev pp l s).1 = .ok ()) {id : Int} {raw : Key} (hid : sym .S id = .ok raw) :
    (stereoLoop k p prev pp l s).2.values.contains raw = true ↔
      s.values.contains raw = true ∨ ((l.find id).isSome = true ∧ (prev.find id).isSome = true) := by
  induction l generalizing s with
  | nil => simp [stereoLoop]
  | cons e l ih =>
    obtain ⟨id', obs⟩ := e
    unfold stereoLoop at hok ⊢
    rw [bind_run] at hok ⊢
    have hfind : (OMap.find ((id', obs) :: l) id).isSome = true ↔ id = id' ∨ (OMap.find l id).isSome = true := by
      rw [OMap.find_cons]
      by_cases h : id = id' <;> simp [h]
    rcases stereoFeature_cases hv hxk p prev pp id' obs with
      ⟨hn, e⟩ | ⟨_, e, _⟩ | ⟨e, _⟩ | ⟨po, xp, lk, bp, hpo, hxp, hl, hc, e⟩
    · rw [e] at hok ⊢
      rw [ih s hv hok, hfind]
      constructor
      · rintro (h | h)
        · exact Or.inl h
        · exact Or.inr ⟨Or.inr h.1, h.2⟩
      · rintro (h | ⟨rfl | h, h2⟩)
        · exact Or.inl h
        · simp [hn] at h2
        · exact Or.inr ⟨h, h2⟩
    · rw [e] at hok; simp at hok
    · exfalso
      revert hok
      rcases hr : stereoFeature k p prev pp id' obs s with ⟨o, s'⟩
      rw [hr] at e
      dsimp only at e
      subst e
      simp
    · rw [e] at hok ⊢
      rw [ih _ (vinv_featState hv hl) hok, hfind]
      have : (featState s k id' (isFirst pp id') xp xk lk po obs (bp p obs)).values = s.values.assign lk (bp p obs) := by
        unfold featState
        split <;> rfl
      rw [this, contains_assign hv.values]
      have hiff : raw = lk ↔ id = id' := by
        constructor
        · rintro rfl; exact (sym_inj hid hl).2
        · rintro rfl; rw [hid] at hl; injection hl
      constructor
      · rintro (h | h)
        · by_cases he : id = id'
          · right; exact ⟨Or.inl he, by rw [he, hpo]; rfl⟩
          · left
            simp only [decide_eq_false (fun h => he (hiff.1 h)), Bool.false_or] at h
            exact h
        · exact Or.inr ⟨Or.inr h.1, h.2⟩
      · rintro (h | ⟨h | h, h2⟩)
        · left; simp [h]
        · left; simp [hiff.2 h]
        · exact Or.inr ⟨h, h2⟩

/-- Which landmarks have a position. -/
theorem has_landmark_invariant {er : EndRead} {log : Log Val D} {s : GM Val D} (h : Reaches er log s)
    (hok : StereoOk log.reverse) {id : Int} {raw : Key} (hid : sym .S id = .ok raw) :
    s.values.contains raw = true ↔ Tracked id (frames log.reverse) := by
  induction h with
  | init => simp [OMap.contains, frames, Tracked]
  | @step log s s' op r hr hs ih =>
    have hv := reaches_vinv hr
    rw [List.reverse_append, List.reverse_cons, List.reverse_nil, List.nil_append, List.singleton_append] at hok ⊢
    have quiet : (∀ k l, op ≠ .stereo k l) → s'.values.contains raw = s.values.contains raw →
        (s'.values.contains raw = true ↔ Tracked id (frames ((op, r) :: log.reverse))) := by
      intro hop e
      have h1 : frames ((op, r) :: log.reverse) = frames log.reverse := by
        cases op <;> cases r <;> simp_all [frames]
      have h2 : StereoOk log.reverse := by
        cases op <;> cases r <;> simp_all [StereoOk]
      rw [h1, e]; exact ih h2
    let P : GM Val D → Prop := fun t => VInv t ∧ t.values.contains raw = s.values.contains raw
    have hset : ∀ c k v, c ≠ .S → Keeps P (set (D := D) c k v) := by
      intro c k v hc t ht
      refine ⟨keeps_vinv_set _ _ _ _ ht.1, ?_⟩
      cases hk : sym c k with
      | ub => exact absurd hk (sym_ne_ub _ _)
      | throws => rw [set_throws t hk]; exact ht.2
      | ok raw' =>
        rw [set_ok ht.1 hk]
        simp only [setState]
        rw [contains_assign ht.1.values, decide_eq_false, Bool.false_or]
        · exact ht.2
        · rintro rfl; exact hc (sym_inj hk hid).1
    have hst := step_state hs
    cases op with
    | setNamedKey n k p =>
      refine quiet (by simp) ?_
      rw [hst]; simp only [stateAfter, setNamedKey, modify_run]; split <;> rfl
    | increment n =>
      refine quiet (by simp) ?_
      rw [hst]; simp only [stateAfter, increment]; split <;> rfl
    | setPose k v => refine quiet (by simp) ?_; rw [hst]; exact (hset .X k v (by simp) s ⟨hv, rfl⟩).2
    | setVelocity k v => refine quiet (by simp) ?_; rw [hst]; exact (hset .V k v (by simp) s ⟨hv, rfl⟩).2
    | setImuBias k v => refine quiet (by simp) ?_; rw [hst]; exact (hset .B k v (by simp) s ⟨hv, rfl⟩).2
    | setBarometerBias k v => refine quiet (by simp) ?_; rw [hst]; exact (hset .P k v (by simp) s ⟨hv, rfl⟩).2
    | setNavstate k p v =>
      refine quiet (by simp) ?_; rw [hst]
      exact (Keeps.bind (m := set .X k p) (hset _ _ _ (by simp)) (fun _ => hset _ _ _ (by simp)) s ⟨hv, rfl⟩).2
    | setTimestamp k t => refine quiet (by simp) ?_; rw [hst]; rfl
    | create kind k d =>
      refine quiet (by simp) ?_; rw [hst]
      exact keeps_createFactor (P := fun t : GM Val D => t.values.contains raw = s.values.contains raw)
        (fun _ _ _ h => h) _ _ _ _ rfl
    | setExtrinsic => refine quiet (by simp) ?_; rw [hst]; rfl
    | setCalibration bp => refine quiet (by simp) ?_; rw [hst]; rfl
    | updateFromValues vs =>
      refine quiet (by simp) ?_; rw [hst]
      refine (keeps_updateFromValues' (P := P) ?_ vs s ⟨hv, rfl⟩).2
      intro raw' v t ht
      refine ⟨keeps_vinv_update _ _ _ ht.1, ?_⟩
      rw [update_run]
      split
      · rename_i hc
        simp only [updateState]
        rw [contains_assign ht.1.values]
        by_cases e : raw = raw'
        · subst e; rw [← ht.2, hc]; simp
        · simp [e, ht.2]
      · exact ht.2
    | extractFactors m => refine quiet (by simp) ?_; rw [hst]; rfl
    | extractValues m =>
      refine quiet (by simp) ?_; rw [hst]
      obtain ⟨n, l, e⟩ := extractNewValues_frame er m s
      simp only [stateAfter]
      rw [e]
    | extractKeys m => refine quiet (by simp) ?_; rw [hst]; rfl
    | stereo k l =>
      obtain ⟨rfl, hsorted, hk, hok'⟩ := hok
      have ih := ih hok'
      have hfi := factors_invariant hr hok'
      have hemp : s.features.emplace k l = s.features ++ [(k, l)] := emplace_last (by
        intro e he
        exact hk e (by rw [← hfi.features]; exact List.mem_reverse.2 he))
      have hs' : respOf (fun _ => .done) (createStereo k l s) = some (.done, s') := hs
      obtain ⟨e1, h2⟩ := respOf_some hs'
      rcases h2 with ⟨_, h2, _⟩ | ⟨_, h2⟩
      · rw [e1]
        show _ ↔ Tracked id ((k, l) :: frames log.reverse)
        rcases createStereo_cases k l s with ⟨_, e⟩ | ⟨_, h1, e⟩ | ⟨_, e⟩ |
          ⟨xk, p, c1, c2, cur, prev, older, hc, hrev, hxk, _, _, e⟩
        · rw [e] at h2; simp at h2
        · rw [e]
          have hnil : s.features = [] := by
            rw [hemp] at h1; simp at h1; exact h1
          rw [← hfi.features, hnil] at ih ⊢
          exact ih
        · rw [e] at h2; simp at h2
        · rw [e] at h2 ⊢
          rw [hemp, List.reverse_append, List.reverse_singleton, List.singleton_append] at hrev
          simp only [List.cons.injEq, Prod.mk.injEq] at hrev
          obtain ⟨⟨rfl, rfl⟩, hrev⟩ := hrev
          have hv' : VInv (loopState (frameState s k l) k) := ⟨hv.values, hv.newValues, hv.coherent, hv.symbols⟩
          rw [stereoLoop_landmarks hxk p prev _ l _ hv' h2 hid]
          rw [← hfi.features, hrev] at ih ⊢
          have e0 : (loopState (frameState s k l) k).values = s.values := rfl
          rw [e0, ih]
          exact or_comm
      · simp at h2

end Graph

end Serpent
