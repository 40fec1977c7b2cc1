import Verif.Spec.Isam
import Verif.Props.GraphRanges

/-!
# Lemmas on the variables waiting for marginalisation
-/

namespace Serpent

namespace Graph

open M

variable {Val D : Type}

/-- The variables with a value are those filed for marginalisation under their index and those in `ks` (already
given away), each once. -/
structure UInv (ks : List Key) (s : GM Val D) : Prop where
  vinv : VInv s
  sorted : s.unmarg.Sorted
  iff : ∀ c j raw, sym c j = .ok raw → (s.values.contains raw = true ↔ raw ∈ lookup s.unmarg j ∨ raw ∈ ks)
  filed : ∀ i raw, raw ∈ lookup s.unmarg i → ∃ c, sym c i = .ok raw
  nodup : (s.unmarg.flatMap (fun e => e.2) ++ ks).Nodup
  given : ∀ raw ∈ ks, s.values.contains raw = true

theorem mem_flat_iff {α : Type} {m : OMap Int (List α)} (hs : m.Sorted) {a : α} :
    a ∈ m.flatMap (fun e => e.2) ↔ ∃ k, a ∈ lookup m k := by
  rw [List.mem_flatMap]
  constructor
  · rintro ⟨e, he, hid⟩
    refine ⟨e.1, ?_⟩
    unfold lookup; rw [OMap.find_of_mem hs he]; exact hid
  · rintro ⟨k, hk⟩
    unfold lookup at hk
    cases hf : m.find k with
    | none => rw [hf] at hk; simp at hk
    | some l => rw [hf] at hk; exact ⟨(k, l), OMap.mem_of_find hf, hk⟩

theorem keeps_uinv_set {ks : List Key} (c : Fam) (k : Int) (v : Val) : Keeps (UInv ks) (set (D := D) c k v) := by
  intro t ht
  cases hk : sym c k with
  | ub => exact absurd hk (sym_ne_ub _ _)
  | throws => rw [set_throws t hk]; exact ht
  | ok raw =>
    have hv' := keeps_vinv_set c k v t ht.vinv
    rw [set_ok ht.vinv hk] at hv' ⊢
    have hv : ∀ r, (setState t raw k v).values.contains r = true ↔ r = raw ∨ t.values.contains r = true := by
      intro r
      unfold setState
      simp [contains_assign ht.vinv.values]
    cases hc : t.values.contains raw with
    | true =>
      have hu : (setState t raw k v).unmarg = t.unmarg := by unfold setState; simp [hc]
      have hv2 : ∀ r, (setState t raw k v).values.contains r = true ↔ t.values.contains r = true := by
        intro r; rw [hv]
        constructor
        · rintro (rfl | h)
          · exact hc
          · exact h
        · exact Or.inr
      exact ⟨hv', by rw [hu]; exact ht.sorted, by intro c' j r hr; rw [hv2, hu]; exact ht.iff c' j r hr,
        by rw [hu]; exact ht.filed, by rw [hu]; exact ht.nodup, by intro r hr; rw [hv2]; exact ht.given r hr⟩
    | false =>
      have hu : (setState t raw k v).unmarg = t.unmarg.alter k (fun o => o.getD [] ++ [raw]) := by
        unfold setState; simp [hc]
      have hl : ∀ i, lookup (setState t raw k v).unmarg i =
          if i = k then lookup t.unmarg k ++ [raw] else lookup t.unmarg i := by
        intro i; rw [hu, lookup_alter ht.sorted]
      have hnew : raw ∉ ks := fun h => by rw [ht.given raw h] at hc; simp at hc
      have hnew2 : raw ∉ t.unmarg.flatMap (fun e => e.2) := by
        intro h
        obtain ⟨i, hi⟩ := (mem_flat_iff ht.sorted).1 h
        obtain ⟨c', hc'⟩ := ht.filed i raw hi
        have := (ht.iff c' i raw hc').2 (Or.inl hi)
        rw [hc] at this; simp at this
      refine ⟨hv', ?_, ?_, ?_, ?_, ?_⟩
      · rw [hu]; exact OMap.sorted_alter ht.sorted _ _
      · intro c' j r hr
        rw [hv, hl, ht.iff c' j r hr]
        by_cases e : r = raw
        · subst e
          have := (sym_inj hk hr).2
          subst this
          simp
        · by_cases ej : j = k
          · subst ej; simp [e]
          · simp [e, ej]
      · intro i r hr
        rw [hl] at hr
        split at hr
        · rename_i e; subst e
          rcases List.mem_append.1 hr with h | h
          · exact ht.filed _ _ h
          · simp at h; subst h; exact ⟨c, hk⟩
        · exact ht.filed _ _ hr
      · rw [hu]
        have hp := (flat_alter t.unmarg k [raw]).append_right ks
        rw [hp.nodup_iff, List.append_assoc, List.nodup_append]
        obtain ⟨n1, n2, n3⟩ := List.nodup_append.1 ht.nodup
        refine ⟨n1, ?_, ?_⟩
        · rw [List.singleton_append, List.nodup_cons]; exact ⟨hnew, n2⟩
        · intro a ha b hb
          rcases List.mem_append.1 hb with hb | hb
          · simp at hb; subst hb
            rintro rfl; exact hnew2 ha
          · exact n3 a ha b hb
      · intro r hr; rw [hv]; exact Or.inr (ht.given r hr)

theorem uinv_of_eq {ks : List Key} {s s' : GM Val D} (h : UInv ks s) (hv : VInv s') (h2 : s'.unmarg = s.unmarg)
    (h1 : ∀ r, s'.values.contains r = s.values.contains r) : UInv ks s' :=
  ⟨hv, by rw [h2]; exact h.sorted, by intro c j r hr; rw [h1, h2]; exact h.iff c j r hr, by rw [h2]; exact h.filed,
    by rw [h2]; exact h.nodup, by intro r hr; rw [h1]; exact h.given r hr⟩

theorem keeps_uinv_update {ks : List Key} (raw : Key) (v : Val) : Keeps (UInv ks) (update (D := D) raw v) := by
  intro t ht
  refine uinv_of_eq ht (keeps_vinv_update _ _ _ ht.vinv) ?_ ?_
  · rw [update_run]; split <;> rfl
  · intro r
    rw [update_run]
    split
    · rename_i hc
      unfold updateState
      simp only [contains_assign ht.vinv.values]
      by_cases e : r = raw
      · subst e; simp [hc]
      · simp [e]
    · rfl

theorem uinv_indep_factors {ks : List Key} : IndepFactors (UInv (Val := Val) (D := D) ks) :=
  fun _ _ _ h => uinv_of_eq h (vinv_indep_factors _ _ _ h.vinv) rfl (fun _ => rfl)

theorem uinv_indep_stereo {ks : List Key} : IndepStereo (UInv (Val := Val) (D := D) ks) :=
  fun _ _ _ _ h => uinv_of_eq h (vinv_indep_stereo _ _ _ _ h.vinv) rfl (fun _ => rfl)

/-- What an extraction of unmarginalised variables returns. -/
theorem extractKeys_spec {ks : List Key} {s : GM Val D} (h : UInv ks s) (m : Int) :
    UInv (ks ++ (extractKeysLoop m s.unmarg).1) (extractUnmarginalisedKeys m s).2 ∧
    (extractKeysLoop m s.unmarg).1.Nodup ∧
    ∀ raw, raw ∈ (extractKeysLoop m s.unmarg).1 ↔
      ∃ c j, sym c j = .ok raw ∧ j ≤ m ∧ s.values.contains raw = true ∧ raw ∉ ks := by
  have hfil : OMap.Sorted (s.unmarg.filter (fun e => decide (e.1 ≤ m))) := OMap.sorted_filter h.sorted _
  have hmem : ∀ raw, raw ∈ (extractKeysLoop m s.unmarg).1 ↔ ∃ j, j ≤ m ∧ raw ∈ lookup s.unmarg j := by
    intro raw
    rw [extractKeysLoop_eq _ _ h.sorted]
    dsimp only
    rw [mem_flat_iff hfil]
    constructor
    · rintro ⟨k, hk⟩
      rw [lookup_filter _ (fun k => decide (k ≤ m))] at hk
      split at hk
      · rename_i e; exact ⟨k, by simpa using e, hk⟩
      · simp at hk
    · rintro ⟨j, a, b⟩
      refine ⟨j, ?_⟩
      rw [lookup_filter _ (fun k => decide (k ≤ m)), if_pos (by simpa using a)]
      exact b
  have hperm : List.Perm (s.unmarg.flatMap (fun e => e.2)) ((extractKeysLoop m s.unmarg).1 ++
      (s.unmarg.filter (fun e => decide (m < e.1))).flatMap (fun e => e.2)) := by
    rw [extractKeysLoop_eq _ _ h.sorted]
    dsimp only
    rw [← List.flatMap_append]
    apply List.Perm.flatMap_right
    have := List.filter_append_perm (fun e : Int × List Key => decide (e.1 ≤ m)) s.unmarg
    refine this.symm.trans ?_
    apply List.Perm.append_left
    apply List.Perm.of_eq
    apply List.filter_congr
    intro e _
    rw [← decide_not]; apply decide_eq_decide.2; omega
  obtain ⟨n1, n2, n3⟩ := List.nodup_append.1 h.nodup
  have hnd1 := hperm.nodup_iff.1 n1
  have hu : (extractUnmarginalisedKeys m s).2.unmarg = s.unmarg.filter (fun e => decide (m < e.1)) := by
    unfold extractUnmarginalisedKeys
    dsimp only
    rw [extractKeysLoop_eq _ _ h.sorted]
  have hval : (extractUnmarginalisedKeys m s).2.values = s.values := rfl
  have hlk : ∀ i, lookup (extractUnmarginalisedKeys m s).2.unmarg i = if m < i then lookup s.unmarg i else [] := by
    intro i
    rw [hu, lookup_filter _ (fun k => decide (m < k))]
    simp
  refine ⟨⟨⟨h.vinv.values, h.vinv.newValues, h.vinv.coherent, h.vinv.symbols⟩, ?_, ?_, ?_, ?_, ?_⟩,
    (List.nodup_append.1 hnd1).1, ?_⟩
  · rw [hu]; exact OMap.sorted_filter h.sorted _
  · intro c j raw hr
    rw [hval, hlk, h.iff c j raw hr, List.mem_append, hmem]
    constructor
    · rintro (a | a)
      · by_cases hj : m < j
        · left; rw [if_pos hj]; exact a
        · right; right; exact ⟨j, by omega, a⟩
      · exact Or.inr (Or.inl a)
    · rintro (a | a | ⟨j', a, b⟩)
      · split at a
        · exact Or.inl a
        · simp at a
      · exact Or.inr a
      · obtain ⟨c', hc'⟩ := h.filed j' raw b
        have := (sym_inj hr hc').2
        subst this; exact Or.inl b
  · intro i raw hr
    rw [hlk] at hr
    split at hr
    · exact h.filed i raw hr
    · simp at hr
  · rw [hu]
    have : List.Perm ((s.unmarg.filter (fun e => decide (m < e.1))).flatMap (fun e => e.2) ++
        (ks ++ (extractKeysLoop m s.unmarg).1)) (s.unmarg.flatMap (fun e => e.2) ++ ks) := by
      refine List.Perm.trans ?_ (hperm.symm.append_right ks)
      refine List.Perm.trans (List.perm_append_comm) ?_
      rw [List.append_assoc, List.append_assoc]
      refine List.Perm.trans (List.perm_append_comm) ?_
      rw [List.append_assoc]
    rw [this.nodup_iff]; exact h.nodup
  · intro raw hr
    rw [hval]
    rcases List.mem_append.1 hr with a | a
    · exact h.given raw a
    · obtain ⟨j, _, b⟩ := (hmem raw).1 a
      obtain ⟨c', hc'⟩ := h.filed j raw b
      exact (h.iff c' j raw hc').2 (Or.inl b)
  · intro raw
    rw [hmem]
    constructor
    · rintro ⟨j, a, b⟩
      obtain ⟨c', hc'⟩ := h.filed j raw b
      refine ⟨c', j, hc', a, (h.iff c' j raw hc').2 (Or.inl b), ?_⟩
      intro hin
      exact n3 raw ((mem_flat_iff h.sorted).2 ⟨j, b⟩) raw hin rfl
    · rintro ⟨c, j, a, b, d, e⟩
      rcases (h.iff c j raw a).1 d with f | f
      · exact ⟨j, b, f⟩
      · exact absurd f e

theorem extractedUnmarg_other {op : Op Val D} {r : Resp Val D} (h : ∀ ks, r ≠ .keys ks)
    (log : List (Op Val D × Resp Val D)) : extractedUnmarg ((op, r) :: log) = extractedUnmarg log := by
  cases r <;> simp_all [extractedUnmarg]

theorem uinv_foldl {ks : List Key} {s : GM Val D} (h : UInv ks s) (er : EndRead) (m : Int) :
    UInv ks (extractNewValues er m s).2 := by
  have hv := keeps_vinv_extractNewValues er m s h.vinv
  obtain ⟨n, l, e⟩ := extractNewValues_frame er m s
  rw [e] at hv ⊢
  exact uinv_of_eq h hv rfl (fun _ => rfl)

theorem step_uinv {er : EndRead} {op : Op Val D} {s s' : GM Val D} {r : Resp Val D} {ks : List Key}
    (h : step er op s = some (r, s')) (hs : UInv ks s) (hop : ∀ m, op ≠ .extractKeys m) : UInv ks s' := by
  have hv : VInv s' := step_vinv h hs.vinv
  rw [step_state h] at hv ⊢
  cases op with
  | setNamedKey n k p =>
    refine uinv_of_eq hs hv ?_ ?_
    · simp only [stateAfter, setNamedKey, modify_run]; split <;> rfl
    · intro; simp only [stateAfter, setNamedKey, modify_run]; split <;> rfl
  | increment n =>
    refine uinv_of_eq hs hv ?_ ?_
    · simp only [stateAfter, increment]; split <;> rfl
    · intro; simp only [stateAfter, increment]; split <;> rfl
  | setPose k v => exact keeps_uinv_set _ _ _ _ hs
  | setVelocity k v => exact keeps_uinv_set _ _ _ _ hs
  | setImuBias k v => exact keeps_uinv_set _ _ _ _ hs
  | setBarometerBias k v => exact keeps_uinv_set _ _ _ _ hs
  | setNavstate k p v =>
    exact Keeps.bind (m := set .X k p) (keeps_uinv_set _ _ _) (fun _ => keeps_uinv_set _ _ _) _ hs
  | setTimestamp k t => exact uinv_of_eq hs hv rfl (fun _ => rfl)
  | create kind k d => exact keeps_createFactor uinv_indep_factors _ _ _ _ hs
  | stereo k fs => exact keeps_createStereo (fun _ _ => keeps_uinv_set _ _ _) uinv_indep_factors uinv_indep_stereo _ _ _ hs
  | setExtrinsic => exact uinv_of_eq hs hv rfl (fun _ => rfl)
  | setCalibration bp => exact uinv_of_eq hs hv rfl (fun _ => rfl)
  | updateFromValues vs => exact keeps_updateFromValues' (fun _ _ => keeps_uinv_update _ _) _ _ hs
  | extractFactors m => exact uinv_of_eq hs hv rfl (fun _ => rfl)
  | extractValues m => exact uinv_foldl hs er m
  | extractKeys m => exact absurd rfl (hop m)

theorem step_keys_resp {er : EndRead} {op : Op Val D} {s s' : GM Val D} {r : Resp Val D}
    (h : step er op s = some (r, s')) (hop : ∀ m, op ≠ .extractKeys m) : ∀ ks, r ≠ .keys ks := by
  cases op <;> simp only [step] at h <;> first
    | exact absurd rfl (hop _)
    | (obtain ⟨_, h2⟩ := respOf_some h
       rcases h2 with ⟨_, _, e⟩ | ⟨_, e⟩ <;> (rw [e]; simp))

theorem reaches_uinv {er : EndRead} {log : Log Val D} {s : GM Val D} (h : Reaches er log s) :
    UInv (extractedUnmarg log.reverse) s := by
  induction h with
  | init => exact ⟨reaches_vinv (er := er) .init, OMap.sorted_nil, by simp [OMap.contains, extractedUnmarg, lookup],
      by simp [lookup], by simp [extractedUnmarg], by simp [extractedUnmarg]⟩
  | @step log s s' op r hr hs ih =>
    rw [List.reverse_append, List.reverse_cons, List.reverse_nil, List.nil_append, List.singleton_append]
    by_cases hop : ∃ m, op = .extractKeys m
    · obtain ⟨m, rfl⟩ := hop
      have hs' : respOf .keys (extractUnmarginalisedKeys m s) = some (r, s') := hs
      obtain ⟨e1, h2⟩ := respOf_some hs'
      rcases h2 with ⟨ks, h2, rfl⟩ | ⟨h2, _⟩
      · have : ks = (extractKeysLoop m s.unmarg).1 := by
          have : (extractUnmarginalisedKeys m s).1 = .ok (extractKeysLoop m s.unmarg).1 := rfl
          rw [this] at h2; injection h2 with h2; exact h2.symm
        rw [e1, this]
        exact (extractKeys_spec ih m).1
      · simp [extractUnmarginalisedKeys] at h2
    · have hop' : ∀ m, op ≠ .extractKeys m := fun m e => hop ⟨m, e⟩
      rw [extractedUnmarg_other (step_keys_resp hs hop')]
      exact step_uinv hs ih hop'

end Graph

end Serpent
