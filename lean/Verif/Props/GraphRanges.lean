import Verif.Lemmas.GraphNewIds
import Verif.Spec.GraphExtract
import Mathlib.Data.List.TakeWhile

/-!
# Properties of value ranges and of the extraction of new values (C07, C08)

`getVal s c k` is `pose`, `velocity`, `imu_bias`, `barometer_bias` or `stereo_landmark` of key (or id) `k`, for `c` =
`X`, `V`, `B`, `P` or `S`; `keyOf c k` is where `gtsam::Values` files it.
-/

namespace Serpent

namespace Graph

open M

variable {Val D : Type}

/-! ## Lemmas -/

theorem getVal_iff {s : GM Val D} {c : Fam} {j : Int} (h0 : 0 ≤ j) (h1 : j < 2 ^ 56) {v : Val} :
    getVal s c j = .ok v ↔ s.values.find (keyOf c j) = some v := by
  unfold getVal
  rw [keyOf_eq h0 h1]
  simp only [Outcome.bind_ok]
  cases s.values.find (keyOf c j) <;> simp

theorem inFam_keyOf {c c' : Fam} {first last j : Int} (h0 : 0 ≤ j) (h1 : j < 2 ^ 56) :
    InFam c' first last (keyOf c j) ↔ c' = c ∧ first ≤ j ∧ j ≤ last := by
  constructor
  · rintro ⟨j', a, b, hj⟩
    obtain ⟨rfl, rfl⟩ := sym_inj hj (keyOf_eq h0 h1)
    exact ⟨rfl, a, b⟩
  · rintro ⟨rfl, a, b⟩
    exact ⟨j, a, b, keyOf_eq h0 h1⟩

theorem mem_idsWhere_lookup {m : OMap Int (List Int)} (hs : m.Sorted) {p : Int → Bool} {id : Int} :
    id ∈ idsWhere m p ↔ ∃ k, p k = true ∧ id ∈ lookup m k := by
  rw [mem_idsWhere]
  constructor
  · rintro ⟨k, ids, h1, h2, h3⟩
    refine ⟨k, h2, ?_⟩
    unfold lookup; rw [OMap.find_of_mem hs h1]; exact h3
  · rintro ⟨k, h1, h2⟩
    unfold lookup at h2
    cases hf : m.find k with
    | none => rw [hf] at h2; simp at h2
    | some ids => rw [hf] at h2; exact ⟨k, ids, OMap.mem_of_find hf, h1, h2⟩

/-! ## C08: extraction of new values -/

/-- C08, content: an extraction up to key `m` that returns, returns for each state quantity of index at most `m` (and
each landmark that started being tracked at a key at most `m`) that has a value and was not extracted before, its
current value; and nothing else. -/
theorem C08_extraction {er : EndRead} {log : Log Val D} {s s' : GM Val D} (h : Reaches er log s)
    (hok : StereoOk log.reverse) (hx : ExtractOk log.reverse) {m : Int} {vs : OMap Key Val}
    (hs : step er (.extractValues m) s = some (.values vs, s')) :
    (∀ c j v, c ≠ Fam.S → 0 ≤ j → j < 2 ^ 56 → (vs.find (keyOf c j) = some v ↔
      (j ≤ m ∧ keyOf c j ∉ extractedKeys log.reverse ∧ getVal s c j = .ok v))) ∧
    (∀ id v, 0 ≤ id → id < 2 ^ 56 → (vs.find (keyOf .S id) = some v ↔
      ((∃ k, k ≤ m ∧ (k, id) ∈ tracks (frames log.reverse)) ∧ keyOf .S id ∉ extractedKeys log.reverse ∧
        getVal s .S id = .ok v))) ∧
    (∀ raw v, vs.find raw = some v → ∃ c j, 0 ≤ j ∧ j < 2 ^ 56 ∧ raw = keyOf c j) := by
  rcases step_extract hs with ⟨h1, _⟩ | ⟨vs', h1, hxx⟩
  · simp at h1
  · injection h1 with h1
    subst h1
    have hv := reaches_vinv h
    have hl := reaches_linv h
    have hsame := (reaches_same h).1
    have hn := newIds_invariant h hok hx
    have hli := landmarks_invariant h hok
    obtain ⟨h0, hsort, hdue, hnot, hin, _, hst⟩ := extractNewValues_ok hv hl.newIds hxx
    have hnew : ∀ raw v, s.newValues.find raw = some v ↔
        raw ∉ extractedKeys log.reverse ∧ s.values.find raw = some v := by
      intro raw v
      constructor
      · intro hf
        exact ⟨((hsame.2.1 raw).1 (contains_iff.2 ⟨v, hf⟩)).2, hv.coherent _ _ hf⟩
      · rintro ⟨a, b⟩
        obtain ⟨w, hw⟩ := contains_iff.1 ((hsame.2.1 raw).2 ⟨contains_iff.2 ⟨v, b⟩, a⟩)
        have := hv.coherent _ _ hw
        rw [b] at this
        injection this with this
        rw [hw, this]
    refine ⟨?_, ?_, ?_⟩
    · intro c j v hc hj0 hj1
      have hd : Due m s.newLandmarkIds (keyOf c j) ↔ j ≤ m := by
        unfold Due
        constructor
        · rintro (⟨c', _, hf⟩ | ⟨id, _, hf⟩)
          · exact ((inFam_keyOf hj0 hj1).1 hf).2.2
          · exact absurd (sym_inj hf (keyOf_eq hj0 hj1)).1.symm hc
        · intro hle
          refine Or.inl ⟨c, ?_, (inFam_keyOf hj0 hj1).2 ⟨rfl, hj0, hle⟩⟩
          cases c <;> simp_all
      rw [getVal_iff hj0 hj1]
      by_cases hle : j ≤ m
      · rw [hdue _ (hd.2 hle), hnew]; simp [hle]
      · rw [hnot _ (fun e => hle (hd.1 e))]; simp [hle]
    · intro id v hi0 hi1
      have hd : Due m s.newLandmarkIds (keyOf .S id) ↔ ∃ k, k ≤ m ∧ id ∈ lookup s.newLandmarkIds k := by
        unfold Due
        constructor
        · rintro (⟨c', hc', hf⟩ | ⟨id', hid', hf⟩)
          · have := ((inFam_keyOf hi0 hi1).1 hf).1
            subst this; simp at hc'
          · have := (sym_inj hf (keyOf_eq hi0 hi1)).2
            subst this
            obtain ⟨k, a, b⟩ := (mem_idsWhere_lookup hl.newIds).1 hid'
            exact ⟨k, by simpa using a, b⟩
        · rintro ⟨k, a, b⟩
          exact Or.inr ⟨id, (mem_idsWhere_lookup hl.newIds).2 ⟨k, by simpa using a, b⟩, keyOf_eq hi0 hi1⟩
      rw [getVal_iff hi0 hi1]
      constructor
      · intro hf
        by_cases hdd : Due m s.newLandmarkIds (keyOf .S id)
        · rw [hdue _ hdd, hnew] at hf
          obtain ⟨k, a, b⟩ := hd.1 hdd
          exact ⟨⟨k, a, newIds_tracks hn.all_or_none hli b⟩, hf⟩
        · rw [hnot _ hdd] at hf; simp at hf
      · rintro ⟨⟨k, a, b⟩, c, d⟩
        rcases hn.gone k id b with e | e
        · rw [hdue _ (hd.2 ⟨k, a, e⟩), hnew]; exact ⟨c, d⟩
        · exact absurd e c
    · intro raw v hf
      by_cases hdd : Due m s.newLandmarkIds raw
      · rcases hdd with ⟨c', _, j, _, _, hj⟩ | ⟨id', _, hj⟩
        · exact ⟨c', j, (sym_ok_iff.1 hj).1, (sym_ok_iff.1 hj).2.1, keyOf_of_sym hj⟩
        · exact ⟨.S, id', (sym_ok_iff.1 hj).1, (sym_ok_iff.1 hj).2.1, keyOf_of_sym hj⟩
      · rw [hnot _ hdd] at hf; simp at hf

/-- C08, at most once: over any history whatever, no variable is returned by two extractions (or twice by one). -/
theorem C08_at_most_once {er : EndRead} {log : Log Val D} {s : GM Val D} (h : Reaches er log s) :
    (extractedKeys log.reverse).Nodup := (reaches_same h).2

/-- C08, an extraction changes no value that the getters return. -/
theorem C08_getters_unchanged {er : EndRead} {m : Int} {s s' : GM Val D} {r : Resp Val D}
    (hs : step er (.extractValues m) s = some (r, s')) (c : Fam) (j : Int) : getVal s' c j = getVal s c j := by
  rcases step_extract hs with ⟨_, l, rfl⟩ | ⟨vs, _, hx⟩
  · rfl
  · rcases extractNewValues_cases er m s with ⟨o, l, ho, e⟩ | ⟨ext, l, e⟩
    · rw [e] at hx
      obtain ⟨rfl, _⟩ := Prod.mk.inj hx
      rcases ho with ho | ho <;> simp at ho
    · rw [e] at hx
      obtain ⟨_, rfl⟩ := Prod.mk.inj hx
      rfl

/-- C08, when the extraction returns (libstdc++ reading of the end iterator): always, if no landmark ever starts being
tracked a second time. Missing for the full claim: reacquired landmarks, for which it is false (below). -/
theorem C08_returns_partial {log : Log Val D} {s : GM Val D} (h : Reaches .nodeCount log s)
    (hok : StereoOk log.reverse) (hx : ExtractOk log.reverse) (hnr : NoReacquired (frames log.reverse)) {m : Int}
    (h0 : 0 ≤ m) (h1 : m < 2 ^ 56) : ∃ vs s', step .nodeCount (.extractValues m) s = some (.values vs, s') := by
  have hn := newIds_invariant h hok hx
  have hv := reaches_vinv h
  have hl := reaches_linv h
  have hli := landmarks_invariant h hok
  have hsame := (reaches_same h).1
  have hnd : (s.newLandmarkIds.flatMap (fun e => e.2)).Nodup := by
    rw [← tag_snd]
    have hst : StableSort (tag s.newLandmarkIds)
        ((tracks (frames log.reverse)).filter (fun e => decide (lookup s.newLandmarkIds e.1 ≠ []))) := by
      apply tag_stableSort hl.newIds
      intro k
      rw [List.filter_filter]
      rcases hn.all_or_none k with e | e
      · rw [e, List.filter_eq_nil_iff.2]
        · rfl
        · rintro x _ hc
          simp only [Bool.and_eq_true, decide_eq_true_eq] at hc
          rw [hc.1] at hc
          exact hc.2 e
      · by_cases hne : lookup s.newLandmarkIds k = []
        · rw [hne, List.filter_eq_nil_iff.2]
          · rfl
          · rintro x _ hc
            simp only [Bool.and_eq_true, decide_eq_true_eq] at hc
            rw [hc.1] at hc
            exact hc.2 hne
        · rw [e, hli]
          congr 1
          apply List.filter_congr
          intro x _
          by_cases hxk : x.1 = k
          · simp [hxk, hne]
          · simp [hxk]
    have hp := (hst.perm).map Prod.snd
    rw [hp.nodup_iff]
    exact hnr.sublist (List.filter_sublist.map _)
  have hnd' : (idsWhere s.newLandmarkIds (fun k => decide (k ≤ m))).Nodup :=
    hnd.sublist (by unfold idsWhere; exact List.filter_sublist.flatMap _)
  obtain ⟨ext, hext⟩ := extractNewValues_succeeds hv hl.newIds ⟨h0, h1⟩ hnd' (by
    intro id hid
    obtain ⟨k, a, b⟩ := (mem_idsWhere_lookup hl.newIds).1 hid
    have hb : id ∈ lookup s.landmarkIds k := by
      rcases hn.all_or_none k with e | e
      · rw [e] at b; simp at b
      · rw [← e]; exact b
    unfold lookup at hb
    cases hf : s.landmarkIds.find k with
    | none => rw [hf] at hb; simp at hb
    | some l =>
      rw [hf] at hb
      obtain ⟨raw, r1, r2⟩ := hl.valued k l id hf hb
      refine ⟨raw, r1, (hsame.2.1 raw).2 ⟨r2, ?_⟩⟩
      rw [keyOf_of_sym r1]
      exact hn.fresh hnr k id b)
  rcases hr : extractNewValues .nodeCount m s with ⟨o, s1⟩
  rw [hr] at hext
  dsimp only at hext
  subst hext
  refine ⟨ext, s1, ?_⟩
  simp only [step]
  rw [hr]
  rfl

/-- No pose above index `m`: then `X(m)` is an upper bound for all variables. -/
theorem top_of_no_pose {s : GM Val D} (hv : VInv s) {vals : OMap Key Val} (hvs : vals.Sorted)
    (hsub : ∀ raw v, vals.find raw = some v → s.values.find raw = some v) {m : Int} (h0 : 0 ≤ m) (h1 : m < 2 ^ 56)
    (htop : ∀ j v, m < j → j < 2 ^ 56 → vals.find (keyOf .X j) ≠ some v) :
    ∀ e ∈ vals, e.1 ≤ keyOf .X m := by
  intro e he
  have hf := OMap.find_of_mem hvs he
  obtain ⟨c, j, hcj⟩ := hv.symbols e.1 (contains_iff.2 ⟨_, hsub _ _ hf⟩)
  obtain ⟨a, b, d⟩ := sym_ok_iff.1 hcj
  by_cases hc : c = .X
  · subst hc
    by_contra hlt
    refine htop j e.2 ?_ b (by rw [← keyOf_of_sym hcj]; exact hf)
    unfold keyOf at hlt
    rw [d] at hlt
    omega
  · have hch : c.chr < Fam.X.chr := by cases c <;> simp_all [Fam.chr]
    show (e.1 : Nat) ≤ keyOf .X m
    rw [d]; unfold keyOf; omega

theorem addFamilies_undefined {vals : OMap Key Val} (hv : vals.Sorted) (hlen : vals.length < 98 * 2 ^ 56)
    {first last : Int} (h1 : 0 ≤ first) (h1' : first < 2 ^ 56) (h2 : 0 ≤ last) (h2' : last < 2 ^ 56)
    (htop : ∀ e ∈ vals, e.1 ≤ keyOf .X last) :
    addFamilies .undefined vals first last [] [.B, .X, .V, .P] = .ub := by
  simp only [addFamilies]
  rw [keyOf_eq (c := .B) h1 h1', keyOf_eq (c := .B) h2 h2', keyOf_eq (c := .X) h1 h1', keyOf_eq (c := .X) h2 h2']
  simp only [Outcome.bind_ok]
  have hB : 98 * 2 ^ 56 ≤ keyOf .B first := Nat.le_add_right _ _
  rcases addValues_any .undefined hv (OMap.sorted_nil (κ := Key)) (first := keyOf .B first) (last := keyOf .B last)
    (lt_of_lt_of_le hlen hB) (by simp) with ⟨_, e⟩ | ⟨acc', e, hs, hf⟩
  · rw [e]; rfl
  · rw [e]
    simp only [Outcome.bind_ok]
    rw [addValues_undefined hv hs htop]
    · rfl
    · intro x hx hle
      rw [hf, if_neg]
      · rfl
      · rintro ⟨_, hlt⟩
        have : (keyOf .X first : Nat) ≤ keyOf .B last := le_trans hle hlt
        unfold keyOf at this
        simp only [Fam.chr] at this
        omega

/-- C08 fails under the language standard: an extraction up to the newest pose (no pose waiting above `m`) reads past
the end of the set of new values. This is how the back end calls it. -/
theorem C08_undefined_at_newest {log : Log Val D} {s : GM Val D} (h : Reaches .undefined log s) {m : Int}
    (h0 : 0 ≤ m) (h1 : m < 2 ^ 56) (hnew : ∀ j v, m < j → pose s j ≠ .ok v) :
    step .undefined (.extractValues m) s = none := by
  have hv := reaches_vinv h
  have hub : addFamilies .undefined s.newValues 0 m [] [.B, .X, .V, .P] = .ub := by
    apply addFamilies_undefined hv.newValues hv.newValues_length (by omega) (by omega) h0 h1
    apply top_of_no_pose hv hv.newValues hv.coherent h0 h1
    intro j v hj hj1 hf
    exact hnew j v hj ((getVal_iff (by omega) hj1).2 (hv.coherent _ _ hf))
  simp only [step, extractNewValues]
  rw [hub]
  rfl

/-! ## C07: value ranges -/

/-- Keys of the frames other than the oldest one. -/
def laterFrames (fs : List (Int × OMap Int D)) : List Int := fs.dropLast.map Prod.fst

theorem loop_contains {k : Int} {xk : Key} (hxk : sym .X k = .ok xk) (p : Val) (prev : OMap Int D)
    (pp : Option (OMap Int D)) (l : List (Int × D)) (s : GM Val D) (hv : VInv s) (hF : FInv s)
    (hub : (stereoLoop k p prev pp l s).1 ≠ .ub) (hk : s.landmarkIds.contains k = true) (k' : Int) :
    (stereoLoop k p prev pp l s).2.landmarkIds.contains k' = true ↔ s.landmarkIds.contains k' = true := by
  have := stereoLoop_induct hxk p prev pp (Q := fun t : GM Val D => FInv t ∧
    ∀ k', t.landmarkIds.contains k' = true ↔ s.landmarkIds.contains k' = true) (by
      intro t id po o xp raw bp hvt hQ _ _ _ _
      refine ⟨finv_featState hQ.1 _ _ _ _ _ _ _ _ _, fun k' => ?_⟩
      cases isFirst pp id with
      | false => exact hQ.2 k'
      | true =>
        rw [← hQ.2 k']
        show (t.landmarkIds.alter k _).contains k' = true ↔ _
        unfold OMap.contains
        rw [OMap.find_alter hQ.1.ids]
        by_cases e : k' = k
        · subst e
          rw [if_pos rfl]
          have := (hQ.2 k').2 hk
          unfold OMap.contains at this
          simp [this]
        · rw [if_neg e]) l s hv ⟨hF, fun _ => Iff.rfl⟩ hub
  exact this.1.2 k'

theorem stereo_contains {s : GM Val D} (hv : VInv s) (hF : FInv s) {k : Int} {l : OMap Int D}
    (hk : ∀ e ∈ s.features, e.1 < k) (hok : (createStereo k l s).1 = .ok ()) (k' : Int) :
    (createStereo k l s).2.landmarkIds.contains k' = true ↔
      s.landmarkIds.contains k' = true ∨ (s.features ≠ [] ∧ k' = k) := by
  have hemp : s.features.emplace k l = s.features ++ [(k, l)] := emplace_last hk
  rcases createStereo_cases k l s with ⟨_, e⟩ | ⟨_, hlen, e⟩ | ⟨_, e⟩ | ⟨xk, p, c1, c2, cur, prev, older, _, hrev, hxk, _, _, e⟩
  · rw [e] at hok; simp at hok
  · rw [hemp] at hlen
    have : s.features = [] := by
      cases hf : s.features with
      | nil => rfl
      | cons a b => rw [hf] at hlen; simp at hlen
    rw [e]
    simp [this, frameState]
  · rw [e] at hok; simp at hok
  · rw [e] at hok ⊢
    have hne : s.features ≠ [] := by
      intro h0
      rw [hemp, h0] at hrev
      simp at hrev
    have hsub : (loopState (frameState s k l) k).landmarkIds = s.landmarkIds.emplace k [] := rfl
    have hc : ∀ k', (s.landmarkIds.emplace k []).contains k' = true ↔ s.landmarkIds.contains k' = true ∨ k' = k := by
      intro k'
      unfold OMap.contains
      rw [OMap.find_emplace hF.ids]
      by_cases e : k' = k
      · subst e; rw [if_pos rfl]; cases s.landmarkIds.find k' <;> simp
      · rw [if_neg e]; simp [e]
    have hv' : VInv (loopState (frameState s k l) k) := ⟨hv.values, hv.newValues, hv.coherent, hv.symbols⟩
    rw [loop_contains hxk p prev _ cur _ hv'
      (finv_loopState (finv_frameState hF k l) k) (by rw [hok]; simp) (by rw [hsub, hc]; simp), hsub, hc]
    simp [hne]

theorem landmarkIds_keys {er : EndRead} {log : Log Val D} {s : GM Val D} (h : Reaches er log s)
    (hok : StereoOk log.reverse) (k : Int) :
    s.landmarkIds.contains k = true ↔ k ∈ laterFrames (frames log.reverse) := by
  induction h with
  | init => simp [OMap.contains, laterFrames, frames]
  | @step log s s' op r hr hs ih =>
    rw [List.reverse_append, List.reverse_cons, List.reverse_nil, List.nil_append, List.singleton_append] at hok ⊢
    have quiet : (∀ k l, op ≠ .stereo k l) → s'.landmarkIds = s.landmarkIds →
        (s'.landmarkIds.contains k = true ↔ k ∈ laterFrames (frames ((op, r) :: log.reverse))) := by
      intro hop e1
      have h1 : frames ((op, r) :: log.reverse) = frames log.reverse := by
        cases op <;> cases r <;> simp_all [frames]
      have h2 : StereoOk log.reverse := by
        cases op <;> cases r <;> simp_all [StereoOk]
      rw [h1, e1]; exact ih h2
    rcases step_quiet hs with ⟨kind, kk, d, rfl⟩ | ⟨kk, l, rfl⟩ | ⟨m, rfl⟩ | ⟨m, rfl⟩ | ⟨h1, h2, h3, h4, _, _, q⟩
    · refine quiet (by simp) ?_
      rw [step_state hs]
      exact keeps_createFactor (P := fun t : GM Val D => t.landmarkIds = s.landmarkIds) (fun _ _ _ h => h) _ _ _ _ rfl
    · obtain ⟨rfl, hsorted, hk, hok'⟩ := hok
      have ih := ih hok'
      have hfi := factors_invariant hr hok'
      have hs' : respOf (fun _ => .done) (createStereo kk l s) = some (.done, s') := hs
      obtain ⟨e1, h2⟩ := respOf_some hs'
      rcases h2 with ⟨_, h2, _⟩ | ⟨_, h2⟩
      · rw [e1, stereo_contains (reaches_vinv hr) (reaches_finv hr) (by
          intro e he
          exact hk e (by rw [← hfi.features]; exact List.mem_reverse.2 he)) h2, ih, frames_stereo]
        have hne : s.features ≠ [] ↔ frames log.reverse ≠ [] := by rw [← hfi.features]; simp
        rw [hne]
        cases hfr : frames log.reverse with
        | nil => simp [laterFrames]
        | cons a b => simp [laterFrames, or_comm]
      · simp at h2
    · refine quiet (by simp) ?_
      rw [step_state hs]; rfl
    · refine quiet (by simp) ?_
      rw [step_state hs]
      obtain ⟨n, l, e⟩ := extractNewValues_frame er m s
      simp only [stateAfter]
      rw [e]
    · exact quiet h1 q.2.2.2.1

/-- The landmark ids that `values(first, last)` visits. -/
theorem dropWhile_ne {m : OMap Int (List Int)} (hs : m.Sorted) (first : Int) :
    OMap.Sorted (m.dropWhile (fun e => decide (e.1 ≠ first))) ∧
    (m.contains first = true → m.dropWhile (fun e => decide (e.1 ≠ first)) = m.filter (fun e => decide (first ≤ e.1))) ∧
    (m.contains first = false → m.dropWhile (fun e => decide (e.1 ≠ first)) = []) := by
  refine ⟨sorted_dropWhile hs _, ?_, ?_⟩
  · intro hc
    induction m with
    | nil => simp [OMap.contains] at hc
    | cons e m ih =>
      obtain ⟨k, ids⟩ := e
      have hs' := OMap.sorted_cons.1 hs
      by_cases e : k = first
      · subst e
        rw [List.dropWhile_cons_of_neg (by simp)]
        rw [List.filter_eq_self.2]
        intro x hx
        rcases List.mem_cons.1 hx with rfl | hx
        · simp
        · have := hs'.1 x hx; simp; omega
      · rw [List.dropWhile_cons_of_pos (by simpa using e)]
        have hc' : OMap.contains m first = true := by
          unfold OMap.contains at hc ⊢
          rw [OMap.find_cons] at hc
          simpa [Ne.symm e] using hc
        rw [ih hs'.2 hc']
        obtain ⟨v, hv⟩ := contains_iff.1 hc'
        have := hs'.1 _ (OMap.mem_of_find hv)
        rw [List.filter_cons_of_neg (by simp; omega)]
  · intro hc
    rw [List.dropWhile_eq_nil_iff]
    intro x hx
    simp only [decide_eq_true_eq]
    intro e
    have := OMap.find_of_mem hs hx
    unfold OMap.contains at hc
    rw [← e, this] at hc
    simp at hc

/-- C07, the landmarks part of the loop, as a list of ids. -/
theorem valuesRange_eq (er : EndRead) {s : GM Val D} (hl : LInv s) (first last : Int) :
    valuesRange er s first last = (addFamilies er s.values first last [] [.B, .X, .V, .P] >>=
      insertLandmarks s.values (idsWhere (s.landmarkIds.dropWhile (fun e => decide (e.1 ≠ first)))
        (fun k => decide (k ≤ last)))) := by
  unfold valuesRange
  cases addFamilies er s.values first last [] [.B, .X, .V, .P] with
  | ok acc => exact valuesLandmarkLoop_eq _ (sorted_dropWhile hl.ids _) acc
  | throws => rfl
  | ub => rfl

/-- What a range query that returns contains, in terms of the ids visited. -/
theorem valuesRange_ok {er : EndRead} {s : GM Val D} (hv : VInv s) (hl : LInv s) {first last : Int} (h1 : 0 ≤ first)
    (h1' : first < 2 ^ 56) (h2 : 0 ≤ last) (h2' : last < 2 ^ 56) {m : OMap Key Val}
    (h : valuesRange er s first last = .ok m) :
    (∀ c j v, c ≠ Fam.S → 0 ≤ j → j < 2 ^ 56 → (m.find (keyOf c j) = some v ↔
      (first ≤ j ∧ j ≤ last ∧ getVal s c j = .ok v))) ∧
    (∀ id v, 0 ≤ id → id < 2 ^ 56 → (m.find (keyOf .S id) = some v ↔
      (id ∈ idsWhere (s.landmarkIds.dropWhile (fun e => decide (e.1 ≠ first))) (fun k => decide (k ≤ last)) ∧
        getVal s .S id = .ok v))) ∧
    (∀ raw v, m.find raw = some v → ∃ c j, 0 ≤ j ∧ j < 2 ^ 56 ∧ raw = keyOf c j) := by
  rw [valuesRange_eq er hl] at h
  rcases addFamilies_any er hv.values hv.values_length h1 h1' h2 h2' [.B, .X, .V, .P] (by decide) []
    OMap.sorted_nil (by simp) with ⟨_, e⟩ | ⟨acc, e, hs, hf⟩
  · rw [e] at h; simp at h
  · rw [e] at h
    simp only [Outcome.bind_ok] at h
    obtain ⟨hms, _, _, hm⟩ := insertLandmarks_ok _ _ _ hs h
    have hfam : ∀ raw, (∃ c ∈ [Fam.B, .X, .V, .P], InFam c first last raw) →
        ¬ ∃ id ∈ idsWhere (s.landmarkIds.dropWhile (fun e => decide (e.1 ≠ first))) (fun k => decide (k ≤ last)),
          sym .S id = .ok raw := by
      rintro raw ⟨c, hc, j, _, _, hj⟩ ⟨id, _, hid⟩
      have := (sym_inj hj hid).1
      subst this; simp at hc
    refine ⟨?_, ?_, ?_⟩
    · intro c j v hc hj0 hj1
      rw [getVal_iff hj0 hj1]
      have hno : ¬ ∃ id ∈ idsWhere (s.landmarkIds.dropWhile (fun e => decide (e.1 ≠ first)))
          (fun k => decide (k ≤ last)), sym .S id = .ok (keyOf c j) := by
        rintro ⟨id, _, hid⟩
        exact hc (sym_inj hid (keyOf_eq hj0 hj1)).1.symm
      rw [(hm _).2 hno]
      by_cases hr : first ≤ j ∧ j ≤ last
      · rw [(hf _).1 ⟨c, by cases c <;> simp_all, (inFam_keyOf hj0 hj1).2 ⟨rfl, hr.1, hr.2⟩⟩]
        simp [hr]
      · rw [(hf _).2 (by
          rintro ⟨c', _, hi⟩
          exact hr ((inFam_keyOf hj0 hj1).1 hi).2)]
        simp only [OMap.find_nil]
        constructor
        · simp
        · rintro ⟨a, b, _⟩; exact absurd ⟨a, b⟩ hr
    · intro id v hi0 hi1
      rw [getVal_iff hi0 hi1]
      by_cases hin : id ∈ idsWhere (s.landmarkIds.dropWhile (fun e => decide (e.1 ≠ first))) (fun k => decide (k ≤ last))
      · rw [(hm _).1 ⟨id, hin, keyOf_eq hi0 hi1⟩]; exact ⟨fun h => ⟨hin, h⟩, fun h => h.2⟩
      · rw [(hm _).2 (by
          rintro ⟨id', h1, h2⟩
          have := (sym_inj h2 (keyOf_eq hi0 hi1)).2
          subst this; exact hin h1), (hf _).2 (by
          rintro ⟨c', hc', hi⟩
          have := ((inFam_keyOf hi0 hi1).1 hi).1
          subst this; simp at hc')]
        exact ⟨fun h => by simp at h, fun h => absurd h.1 hin⟩
    · intro raw v hr
      by_cases ha : ∃ id ∈ idsWhere (s.landmarkIds.dropWhile (fun e => decide (e.1 ≠ first)))
          (fun k => decide (k ≤ last)), sym .S id = .ok raw
      · obtain ⟨id, _, hj⟩ := ha
        exact ⟨.S, id, (sym_ok_iff.1 hj).1, (sym_ok_iff.1 hj).2.1, keyOf_of_sym hj⟩
      · rw [(hm _).2 ha] at hr
        by_cases hb : ∃ c ∈ [Fam.B, .X, .V, .P], InFam c first last raw
        · obtain ⟨c, _, j, _, _, hj⟩ := hb
          exact ⟨c, j, (sym_ok_iff.1 hj).1, (sym_ok_iff.1 hj).2.1, keyOf_of_sym hj⟩
        · rw [(hf _).2 hb] at hr; simp at hr

theorem visited_iff {er : EndRead} {log : Log Val D} {s : GM Val D} (h : Reaches er log s)
    (hok : StereoOk log.reverse) {first last : Int} (hfirst : first ∈ laterFrames (frames log.reverse)) {id : Int} :
    id ∈ idsWhere (s.landmarkIds.dropWhile (fun e => decide (e.1 ≠ first))) (fun k => decide (k ≤ last)) ↔
      ∃ k, first ≤ k ∧ k ≤ last ∧ (k, id) ∈ tracks (frames log.reverse) := by
  have hl := reaches_linv h
  rw [(dropWhile_ne hl.ids first).2.1 ((landmarkIds_keys h hok first).2 hfirst)]
  have hsort : OMap.Sorted (s.landmarkIds.filter (fun e => decide (first ≤ e.1))) :=
    List.Pairwise.sublist List.filter_sublist hl.ids
  rw [mem_idsWhere_lookup hsort]
  simp only [lookup_filter _ (fun k => decide (first ≤ k)), decide_eq_true_eq]
  constructor
  · rintro ⟨k, a, b⟩
    split at b
    · rename_i hk
      rw [landmarks_invariant h hok] at b
      exact ⟨k, hk, a, mem_tracks_of_lookup.1 b⟩
    · simp at b
  · rintro ⟨k, a, b, c⟩
    refine ⟨k, b, ?_⟩
    rw [if_pos a, landmarks_invariant h hok]
    exact mem_tracks_of_lookup.2 c

/-- C07, states: a range query that returns contains exactly the poses, velocities and biases of the keys in the
range. -/
theorem C07_states {er : EndRead} {log : Log Val D} {s : GM Val D} (h : Reaches er log s) {first last : Int}
    (h1 : 0 ≤ first) (h1' : first < 2 ^ 56) (h2 : 0 ≤ last) (h2' : last < 2 ^ 56) {m : OMap Key Val}
    (hm : valuesRange er s first last = .ok m) :
    (∀ c j v, c ≠ Fam.S → 0 ≤ j → j < 2 ^ 56 → (m.find (keyOf c j) = some v ↔
      (first ≤ j ∧ j ≤ last ∧ getVal s c j = .ok v))) ∧
    (∀ raw v, m.find raw = some v → ∃ c j, 0 ≤ j ∧ j < 2 ^ 56 ∧ raw = keyOf c j) := by
  obtain ⟨a, _, b⟩ := valuesRange_ok (reaches_vinv h) (reaches_linv h) h1 h1' h2 h2' hm
  exact ⟨a, b⟩

/-- C07, landmarks: those that started being tracked at a key in the range are in it, provided the first key of the
range is the key of a frame other than the oldest. Missing for the full claim: other first keys, for which it is false
(next theorem). -/
theorem C07_landmarks_partial {er : EndRead} {log : Log Val D} {s : GM Val D} (h : Reaches er log s)
    (hok : StereoOk log.reverse) {first last : Int} (h1 : 0 ≤ first) (h1' : first < 2 ^ 56) (h2 : 0 ≤ last)
    (h2' : last < 2 ^ 56) (hfirst : first ∈ laterFrames (frames log.reverse)) {m : OMap Key Val}
    (hm : valuesRange er s first last = .ok m) (id : Int) (v : Val) (hi0 : 0 ≤ id) (hi1 : id < 2 ^ 56) :
    m.find (keyOf .S id) = some v ↔
      ((∃ k, first ≤ k ∧ k ≤ last ∧ (k, id) ∈ tracks (frames log.reverse)) ∧ getVal s .S id = .ok v) := by
  rw [(valuesRange_ok (reaches_vinv h) (reaches_linv h) h1 h1' h2 h2' hm).2.1 id v hi0 hi1, visited_iff h hok hfirst]

/-- C07 fails: when the first key of the range is not that of a frame after the oldest (for instance 0), no landmark at
all is in the result. -/
theorem C07_fails_no_landmarks {er : EndRead} {log : Log Val D} {s : GM Val D} (h : Reaches er log s)
    (hok : StereoOk log.reverse) {first last : Int} (h1 : 0 ≤ first) (h1' : first < 2 ^ 56) (h2 : 0 ≤ last)
    (h2' : last < 2 ^ 56) (hfirst : first ∉ laterFrames (frames log.reverse)) {m : OMap Key Val}
    (hm : valuesRange er s first last = .ok m) (id : Int) (hi0 : 0 ≤ id) (hi1 : id < 2 ^ 56) :
    m.find (keyOf .S id) = none := by
  have hl := reaches_linv h
  have hc : s.landmarkIds.contains first = false := by
    cases e : s.landmarkIds.contains first with
    | false => rfl
    | true => exact absurd ((landmarkIds_keys h hok first).1 e) hfirst
  cases hf : m.find (keyOf .S id) with
  | none => rfl
  | some v =>
    have := ((valuesRange_ok (reaches_vinv h) hl h1 h1' h2 h2' hm).2.1 id v hi0 hi1).1 hf
    rw [(dropWhile_ne hl.ids first).2.2 hc] at this
    simp [idsWhere] at this

theorem insertLandmarks_defined {vals : OMap Key Val} (ids : List Int) (acc : OMap Key Val) :
    insertLandmarks vals ids acc ≠ .ub := by
  induction ids generalizing acc with
  | nil => simp [insertLandmarks]
  | cons id ids ih =>
    simp only [insertLandmarks]
    cases hk : sym .S id with
    | throws => simp
    | ub =>
      unfold sym at hk
      split at hk <;> simp at hk
    | ok raw =>
      simp only [Outcome.bind_ok]
      cases vals.find raw with
      | none => simp
      | some v =>
        dsimp only
        split
        · simp
        · exact ih _

theorem idsWhere_eq_tag (m : OMap Int (List Int)) (p : Int → Bool) :
    idsWhere m p = ((tag m).filter (fun e => p e.1)).map Prod.snd := by
  induction m with
  | nil => rfl
  | cons e m ih =>
    have e0 : tag (e :: m) = e.2.map (fun a => (e.1, a)) ++ tag m := rfl
    rw [e0, List.filter_append, List.map_append, ← ih]
    unfold idsWhere
    cases hp : p e.1 with
    | true =>
      have hall : (e.2.map (fun a => (e.1, a))).filter (fun x => p x.1) = e.2.map (fun a => (e.1, a)) := by
        rw [List.filter_eq_self]
        intro x hx
        obtain ⟨a, _, rfl⟩ := List.mem_map.1 hx
        exact hp
      rw [hall, List.filter_cons_of_pos (by simpa using hp), List.flatMap_cons, List.map_map]
      congr 1
      simp [Function.comp_def]
    | false =>
      have hall : (e.2.map (fun a => (e.1, a))).filter (fun x => p x.1) = [] := by
        rw [List.filter_eq_nil_iff]
        intro x hx
        obtain ⟨a, _, rfl⟩ := List.mem_map.1 hx
        simp [hp]
      rw [hall, List.filter_cons_of_neg (by simp [hp])]
      rfl

/-- The ids that a range query visits, as a multiset. -/
theorem visited_perm {er : EndRead} {log : Log Val D} {s : GM Val D} (h : Reaches er log s) (hok : StereoOk log.reverse)
    {first last : Int} (hfirst : first ∈ laterFrames (frames log.reverse)) :
    List.Perm (idsWhere (s.landmarkIds.dropWhile (fun e => decide (e.1 ≠ first))) (fun k => decide (k ≤ last)))
      (((tracks (frames log.reverse)).filter (fun e => decide (first ≤ e.1) && decide (e.1 ≤ last))).map Prod.snd) := by
  have hl := reaches_linv h
  rw [(dropWhile_ne hl.ids first).2.1 ((landmarkIds_keys h hok first).2 hfirst)]
  have hst : StableSort (tag s.landmarkIds) (tracks (frames log.reverse)) := tag_stableSort hl.ids (landmarks_invariant h hok)
  have he : idsWhere (s.landmarkIds.filter (fun e => decide (first ≤ e.1))) (fun k => decide (k ≤ last)) =
      idsWhere s.landmarkIds (fun k => decide (first ≤ k) && decide (k ≤ last)) := by
    unfold idsWhere
    rw [List.filter_filter]
    congr 1
    apply List.filter_congr
    intro e _
    rw [Bool.and_comm]
  rw [he, idsWhere_eq_tag]
  exact ((hst.perm).filter _).map _

/-- C07, when a range query returns (libstdc++ reading of the end iterator): it throws exactly if its first key is that of a frame
other than the oldest and some landmark starts being tracked twice at keys in the range; otherwise it returns. Missing for the full
claim: a result in the case where it throws. -/
theorem C07_returns_partial {log : Log Val D} {s : GM Val D} (h : Reaches .nodeCount log s)
    (hok : StereoOk log.reverse) {first last : Int}
    (h1 : 0 ≤ first) (h1' : first < 2 ^ 56) (h2 : 0 ≤ last) (h2' : last < 2 ^ 56) :
    (valuesRange .nodeCount s first last = .throws ↔ first ∈ laterFrames (frames log.reverse) ∧
      ¬ (((tracks (frames log.reverse)).filter (fun e => decide (first ≤ e.1) && decide (e.1 ≤ last))).map Prod.snd).Nodup) ∧
    valuesRange .nodeCount s first last ≠ .ub := by
  have hl := reaches_linv h
  have hv := reaches_vinv h
  rw [valuesRange_eq .nodeCount hl]
  rcases addFamilies_any .nodeCount hv.values hv.values_length h1 h1' h2 h2' [.B, .X, .V, .P] (by decide) []
    OMap.sorted_nil (by simp) with ⟨e, _⟩ | ⟨acc, e, hs, hf⟩
  · simp at e
  · rw [e]
    simp only [Outcome.bind_ok]
    refine ⟨?_, insertLandmarks_defined _ _⟩
    have hok' : (idsWhere (s.landmarkIds.dropWhile (fun e => decide (e.1 ≠ first))) (fun k => decide (k ≤ last))).Nodup →
        ∃ m, insertLandmarks s.values (idsWhere (s.landmarkIds.dropWhile (fun e => decide (e.1 ≠ first)))
          (fun k => decide (k ≤ last))) acc = .ok m := by
      intro hnd
      apply insertLandmarks_succeeds _ _ hs hnd
      intro id hid
      obtain ⟨k, ids, a, _, c⟩ := mem_idsWhere.1 hid
      have a' := (List.dropWhile_sublist _).subset a
      obtain ⟨raw, r1, r2⟩ := hl.valued k ids id (OMap.find_of_mem hl.ids a') c
      refine ⟨raw, r1, r2, ?_⟩
      unfold OMap.contains
      rw [(hf raw).2]
      · rfl
      · rintro ⟨c', hc', j, _, _, hj⟩
        have := (sym_inj hj r1).1
        subst this; simp at hc'
    constructor
    · intro ht
      by_cases hfirst : first ∈ laterFrames (frames log.reverse)
      · refine ⟨hfirst, fun hnd => ?_⟩
        obtain ⟨m, hm⟩ := hok' ((visited_perm h hok hfirst).nodup_iff.2 hnd)
        rw [hm] at ht
        cases ht
      · exfalso
        have hc : s.landmarkIds.contains first = false := by
          cases e : s.landmarkIds.contains first with
          | false => rfl
          | true => exact absurd ((landmarkIds_keys h hok first).1 e) hfirst
        rw [(dropWhile_ne hl.ids first).2.2 hc] at ht
        simp [idsWhere, insertLandmarks] at ht
    · rintro ⟨hfirst, hnd⟩
      cases hr : insertLandmarks s.values (idsWhere (s.landmarkIds.dropWhile (fun e => decide (e.1 ≠ first)))
          (fun k => decide (k ≤ last))) acc with
      | throws => rfl
      | ub => exact absurd hr (insertLandmarks_defined _ _)
      | ok m => exact absurd ((visited_perm h hok hfirst).nodup_iff.1 (insertLandmarks_ok _ _ _ hs hr).2.2.1) hnd

/-- C07 fails under the language standard: a range that ends at (or after) the newest pose reads past the end of the
set of values. -/
theorem C07_undefined_at_newest {log : Log Val D} {s : GM Val D} (h : Reaches .undefined log s) {first last : Int}
    (h1 : 0 ≤ first) (h1' : first < 2 ^ 56) (h2 : 0 ≤ last) (h2' : last < 2 ^ 56)
    (hnew : ∀ j v, last < j → pose s j ≠ .ok v) : valuesRange .undefined s first last = .ub := by
  have hv := reaches_vinv h
  have hub : addFamilies .undefined s.values first last [] [.B, .X, .V, .P] = .ub := by
    apply addFamilies_undefined hv.values hv.values_length h1 h1' h2 h2'
    apply top_of_no_pose hv hv.values (fun _ _ h => h) h2 h2'
    intro j v hj hj1 hf
    exact hnew j v hj ((getVal_iff (by omega) hj1).2 hf)
  unfold valuesRange
  rw [hub]
  rfl

/-! ## Witnesses -/

/-- Landmark 7 is tracked in frames 0, 1 and again in frames 3, 4. -/
def demoReacquired : List (Op Nat Nat) :=
  [.setExtrinsic, .setCalibration (fun _ o => o), .setPose 0 1, .setPose 1 2, .setPose 2 3, .setPose 3 4, .setPose 4 5,
   .stereo 0 [(7, 100)], .stereo 1 [(7, 101)], .extractValues 1, .stereo 2 [], .stereo 3 [(7, 103)], .stereo 4 [(7, 104)]]

/-- Executable form of `ExtractOk`. -/
def extractOkB : List (Op Val D × Resp Val D) → Bool
  | [] => true
  | (.extractValues _, .threw) :: _ => false
  | _ :: e => extractOkB e

theorem extractOk_of_b {log : List (Op Val D × Resp Val D)} (h : extractOkB log = true) : ExtractOk log := by
  induction log with
  | nil => intro m r hm; simp at hm
  | cons e log ih =>
    obtain ⟨op, r⟩ := e
    have h' : extractOkB log = true := by cases op <;> cases r <;> simp_all [extractOkB]
    intro m r' hm
    rcases List.mem_cons.1 hm with hm | hm
    · obtain ⟨rfl, rfl⟩ := Prod.mk.inj hm
      rintro rfl
      simp [extractOkB] at h
    · exact ih h' m r' hm

/-- C07 and C08 fail: after a landmark is lost and tracked again, both the range query and the extraction throw. -/
theorem C08_fails_reacquired : ∃ (log : Log Nat Nat) (s s' : GM Nat Nat), Reaches .nodeCount log s ∧
    StereoOk log.reverse ∧ ExtractOk log.reverse ∧ step .nodeCount (.extractValues 4) s = some (.threw, s') :=
  ⟨_, ((run .nodeCount demoReacquired ([], {})).get (by decide +kernel)).2,
    (extractNewValues .nodeCount 4 ((run .nodeCount demoReacquired ([], {})).get (by decide +kernel)).2).2,
    reaches_get (ops := demoReacquired) (by decide +kernel),
    stereoOk_of_b (by decide +kernel), extractOk_of_b (by decide +kernel), by
      have : (extractNewValues .nodeCount 4
        ((run .nodeCount demoReacquired ([], {})).get (by decide +kernel)).2).1 = .throws := by decide +kernel
      simp only [step]
      rcases hr : extractNewValues .nodeCount 4
        ((run .nodeCount demoReacquired ([], {})).get (by decide +kernel)).2 with ⟨o, s1⟩
      rw [hr] at this
      dsimp only at this
      subst this
      rfl⟩

theorem extractLandmarkLoop_defined (vals : OMap Key Val) (m : Int) (ids : OMap Int (List Int)) (acc : OMap Key Val) :
    (extractLandmarkLoop vals m ids acc).1 ≠ .ub := by
  induction ids generalizing acc with
  | nil => simp [extractLandmarkLoop]
  | cons e ids ih =>
    obtain ⟨k, l⟩ := e
    simp only [extractLandmarkLoop]
    split
    · split
      · exact ih _
      · simp
      · rename_i h
        exact absurd h (insertLandmarks_defined _ _)
    · simp

/-- The ids waiting for extraction at a key, from the history. -/
theorem newIds_waiting {er : EndRead} {log : Log Val D} {s : GM Val D} (h : Reaches er log s)
    (hok : StereoOk log.reverse) (hx : ExtractOk log.reverse) (k : Int) :
    lookup s.newLandmarkIds k = ((startsWaiting log.reverse).filter (fun e => decide (e.1 = k))).map Prod.snd := by
  induction h with
  | init => rfl
  | @step log s s' op r hr hs ih =>
    have hF := reaches_finv hr
    rw [List.reverse_append, List.reverse_cons, List.reverse_nil, List.nil_append, List.singleton_append] at hok hx ⊢
    have hx' : ExtractOk log.reverse := fun m r h => hx m r (List.mem_cons_of_mem _ h)
    have quiet : (∀ k l, op ≠ .stereo k l) → (∀ m, op ≠ .extractValues m) → s'.newLandmarkIds = s.newLandmarkIds →
        lookup s'.newLandmarkIds k =
          ((startsWaiting ((op, r) :: log.reverse)).filter (fun e => decide (e.1 = k))).map Prod.snd := by
      intro hop hop2 e2
      have h1 : startsWaiting ((op, r) :: log.reverse) = startsWaiting log.reverse := by
        cases op <;> cases r <;> simp_all [startsWaiting]
      have h2 : StereoOk log.reverse := by
        cases op <;> cases r <;> simp_all [StereoOk]
      rw [e2, h1]
      exact ih h2 hx'
    rcases step_quiet hs with ⟨kind, k', d, rfl⟩ | ⟨k', l, rfl⟩ | ⟨m, rfl⟩ | ⟨m, rfl⟩ | ⟨h1, _, _, h4, _, _, q⟩
    · have e := keeps_createFactor (P := fun t : GM Val D => t.newLandmarkIds = s.newLandmarkIds)
        (fun _ _ _ h => h) kind k' d s rfl
      refine quiet (by simp) (by simp) ?_
      rw [step_state hs]; exact e
    · obtain ⟨rfl, _, hk, hok'⟩ := hok
      have ih := ih hok' hx'
      have hfi := factors_invariant hr hok'
      have hs' : respOf (fun _ => .done) (createStereo k' l s) = some (.done, s') := hs
      obtain ⟨e1, h2⟩ := respOf_some hs'
      rcases h2 with ⟨_, h2, _⟩ | ⟨_, h2⟩
      · obtain ⟨_, f2⟩ := createStereo_effect (reaches_vinv hr) hF k' l (by
          intro e he
          exact hk e (by rw [← hfi.features]; exact List.mem_reverse.2 he)) h2
        obtain ⟨_, _, _, g2⟩ := lookup_append_frame hF k' l
        rw [hfi.features] at f2
        rw [e1, f2.newIds, g2]
        simp only [startsWaiting, List.filter_append, List.map_append]
        rw [filter_tagged]
        by_cases hkk : k = k'
        · subst hkk
          rw [if_pos rfl, if_pos rfl, ih]
        · rw [if_neg hkk, if_neg hkk, List.append_nil]
          exact ih
      · simp at h2
    · refine quiet (by simp) (by simp) ?_
      rw [step_state hs]; rfl
    · have ih := ih hok hx'
      rcases step_extract hs with ⟨rfl, l, rfl⟩ | ⟨vs, rfl, hxx⟩
      · exact absurd rfl (hx m .threw List.mem_cons_self)
      · obtain ⟨_, _, _, _, _, _, hst⟩ := extractNewValues_ok (reaches_vinv hr) (reaches_linv hr).newIds hxx
        rw [hst]
        show lookup (s.newLandmarkIds.filter (fun e => decide (m < e.1))) k = _
        rw [lookup_filter _ (fun k => decide (m < k)), ih]
        simp only [startsWaiting, List.filter_filter]
        by_cases hmk : m < k
        · rw [if_pos (by simpa using hmk)]
          congr 1
          apply List.filter_congr
          intro x _
          by_cases hxk : x.1 = k
          · simp [hxk, hmk]
          · simp [hxk]
        · rw [if_neg (by simpa using hmk), List.filter_eq_nil_iff.2]
          · rfl
          · intro x _ hc
            simp only [Bool.and_eq_true, decide_eq_true_eq] at hc
            omega
    · exact quiet h1 h4 q.2.2.2.2

/-- C08, when the extraction returns (libstdc++ reading of the end iterator), exactly: if every landmark due is due once and was
returned by no earlier extraction. Otherwise it throws; it is never undefined. Missing for the full claim: a result in the cases where
it throws. -/
theorem C08_returns_exactly_partial {log : Log Val D} {s : GM Val D} (h : Reaches .nodeCount log s)
    (hok : StereoOk log.reverse) (hx : ExtractOk log.reverse) {m : Int} (h0 : 0 ≤ m) (h1 : m < 2 ^ 56) :
    ((∃ vs s', step .nodeCount (.extractValues m) s = some (.values vs, s')) ↔
      (landmarksDue log.reverse m).Nodup ∧ ∀ id ∈ landmarksDue log.reverse m, keyOf .S id ∉ extractedKeys log.reverse) ∧
    ((∃ vs s', step .nodeCount (.extractValues m) s = some (.values vs, s')) ∨
      ∃ s', step .nodeCount (.extractValues m) s = some (.threw, s')) := by
  have hn := newIds_invariant h hok hx
  have hv := reaches_vinv h
  have hl := reaches_linv h
  have hsame := (reaches_same h).1
  have hperm : List.Perm (idsWhere s.newLandmarkIds (fun k => decide (k ≤ m))) (landmarksDue log.reverse m) := by
    rw [idsWhere_eq_tag]
    exact (((tag_stableSort hl.newIds (newIds_waiting h hok hx)).perm).filter _).map _
  have hval : ∀ id ∈ idsWhere s.newLandmarkIds (fun k => decide (k ≤ m)),
      ∃ raw, sym .S id = .ok raw ∧ s.values.contains raw = true := by
    intro id hid
    obtain ⟨k, a, b⟩ := (mem_idsWhere_lookup hl.newIds).1 hid
    have hb : id ∈ lookup s.landmarkIds k := by
      rcases hn.all_or_none k with e | e
      · rw [e] at b; simp at b
      · rw [← e]; exact b
    unfold lookup at hb
    cases hf : s.landmarkIds.find k with
    | none => rw [hf] at hb; simp at hb
    | some l =>
      rw [hf] at hb
      exact hl.valued k l id hf hb
  have hiff : (∃ vs s', step .nodeCount (.extractValues m) s = some (.values vs, s')) ↔
      (idsWhere s.newLandmarkIds (fun k => decide (k ≤ m))).Nodup ∧
        ∀ id ∈ idsWhere s.newLandmarkIds (fun k => decide (k ≤ m)), keyOf .S id ∉ extractedKeys log.reverse := by
    constructor
    · rintro ⟨vs, s', hs⟩
      rcases step_extract hs with ⟨e, _⟩ | ⟨vs', _, hxx⟩
      · simp at e
      · obtain ⟨_, _, _, _, hin, hnd, _⟩ := extractNewValues_ok hv hl.newIds hxx
        refine ⟨hnd, fun id hid => ?_⟩
        obtain ⟨raw, r1, r2⟩ := hin id hid
        rw [← keyOf_of_sym r1]
        exact ((hsame.2.1 raw).1 r2).2
    · rintro ⟨hnd, hnot⟩
      obtain ⟨ext, hext⟩ := extractNewValues_succeeds hv hl.newIds ⟨h0, h1⟩ hnd (by
        intro id hid
        obtain ⟨raw, r1, r2⟩ := hval id hid
        refine ⟨raw, r1, (hsame.2.1 raw).2 ⟨r2, ?_⟩⟩
        rw [keyOf_of_sym r1]
        exact hnot id hid)
      rcases hr : extractNewValues .nodeCount m s with ⟨o, s1⟩
      rw [hr] at hext
      dsimp only at hext
      subst hext
      refine ⟨ext, s1, ?_⟩
      simp only [step]
      rw [hr]
      rfl
  constructor
  · rw [hiff, hperm.nodup_iff]
    refine and_congr_right fun _ => ?_
    constructor
    · exact fun hh id hid => hh id (hperm.mem_iff.2 hid)
    · exact fun hh id hid => hh id (hperm.mem_iff.1 hid)
  · have hne : (extractNewValues .nodeCount m s).1 ≠ .ub := by
      unfold extractNewValues
      rcases addFamilies_any .nodeCount hv.newValues hv.newValues_length (first := 0) (last := m)
        (by omega) (by omega) h0 h1 [.B, .X, .V, .P] (by decide) [] OMap.sorted_nil (by simp) with ⟨f1, _⟩ | ⟨acc, f1, _, _⟩
      · simp at f1
      · rw [f1]
        dsimp only
        have := extractLandmarkLoop_defined s.newValues m s.newLandmarkIds acc
        split
        · simp
        · simp
        · rename_i hub
          exact absurd hub this
    rcases hr : extractNewValues .nodeCount m s with ⟨o, s1⟩
    rw [hr] at hne
    cases o with
    | ok vs => exact Or.inl ⟨vs, s1, by simp only [step]; rw [hr]; rfl⟩
    | throws => exact Or.inr ⟨s1, by simp only [step]; rw [hr]; rfl⟩
    | ub => exact absurd rfl hne

/-- The exact condition distinguishes: at the end of this history landmark 7 is due a second time. -/
example : landmarksDue (((run (Val := Nat) (D := Nat) .nodeCount demoReacquired ([], {})).get (by decide +kernel)).1).reverse 4 = [7] ∧
    keyOf .S 7 ∈ extractedKeys (((run (Val := Nat) (D := Nat) .nodeCount demoReacquired ([], {})).get (by decide +kernel)).1).reverse ∧
    landmarksDue (((run (Val := Nat) (D := Nat) .nodeCount demoStereo ([], {})).get (by decide +kernel)).1).reverse 1 = [3, 7] ∧
    extractedKeys (((run (Val := Nat) (D := Nat) .nodeCount demoStereo ([], {})).get (by decide +kernel)).1).reverse = [] := by
  decide +kernel

/-- **C07 fails** for a landmark that is seen again after it was lost: a call for the values of a range of keys throws instead of
giving them. -/
theorem C07_fails_reacquired : ∃ (log : Log Nat Nat) (s : GM Nat Nat), Reaches .nodeCount log s ∧
    StereoOk log.reverse ∧ valuesRange .nodeCount s 1 4 = .throws :=
  ⟨_, _, reaches_get (ops := demoReacquired) (by decide +kernel), stereoOk_of_b (by decide +kernel),
    by decide +kernel⟩

/-- The hypotheses of C07 and C08 are met: landmarks 3 and 7 start at key 1, landmark 4 at key 2. -/
example : ∃ log s, Reaches (Val := Nat) (D := Nat) .nodeCount log s ∧ StereoOk log.reverse ∧ ExtractOk log.reverse ∧
    NoReacquired (frames log.reverse) ∧ 1 ∈ laterFrames (frames log.reverse) ∧
    0 ∉ laterFrames (frames log.reverse) ∧
    valuesRange .nodeCount s 1 2 = .ok [(keyOf .S 3, 31), (keyOf .S 4, 42), (keyOf .S 7, 102), (keyOf .X 1, 2),
      (keyOf .X 2, 3)] ∧
    valuesRange .nodeCount s 0 1 = .ok [(keyOf .X 0, 1), (keyOf .X 1, 2)] ∧
    (extractNewValues .nodeCount 1 s).1 = .ok [(keyOf .S 3, 31), (keyOf .S 7, 102), (keyOf .X 0, 1), (keyOf .X 1, 2)] :=
  ⟨_, _, reaches_get (ops := demoStereo) (by decide +kernel), stereoOk_of_b (by decide +kernel),
    extractOk_of_b (by decide +kernel), by unfold NoReacquired; decide +kernel, by decide +kernel, by decide +kernel,
    by decide +kernel, by decide +kernel, by decide +kernel⟩

example : ∃ log s, Reaches (Val := Nat) (D := Nat) .undefined log s ∧ pose s 0 = .ok 3 ∧
    ∀ j v, 0 < j → pose s j ≠ .ok v := by
  refine ⟨_, _, reaches_get (er := .undefined) (ops := [.setPose 0 3]) (by decide +kernel), by decide +kernel, ?_⟩
  intro j v hj
  unfold pose getVal sym
  split
  · rename_i h
    simp only [Outcome.bind_ok]
    have : OMap.find ((run (Val := Nat) (D := Nat) .undefined [.setPose 0 3] ([], {})).get (by decide +kernel)).2.values
        (Fam.X.chr * 2 ^ 56 + j.toNat) = none := by
      have e : ((run (Val := Nat) (D := Nat) .undefined [.setPose 0 3] ([], {})).get (by decide +kernel)).2.values
        = [(Fam.X.chr * 2 ^ 56, 3)] := by decide +kernel
      rw [e, OMap.find_cons, if_neg (by omega)]
      rfl
    rw [this]
    simp
  · simp

end Graph

end Serpent
