import Verif.Lemmas.GraphFrame
import Mathlib.Data.Finset.Card
import Mathlib.Order.Interval.Finset.Nat

/-!
# Lemmas on the values held by a `GraphManager`
-/

namespace Serpent

namespace Graph

open M

variable {Val D : Type}

/-! ### Symbols -/

theorem sym_ne_ub (c : Fam) (j : Int) : sym c j ≠ .ub := by
  unfold sym; split <;> simp

theorem sym_ok_iff {c : Fam} {j : Int} {raw : Key} :
    sym c j = .ok raw ↔ 0 ≤ j ∧ j < 2 ^ 56 ∧ raw = c.chr * 2 ^ 56 + j.toNat := by
  unfold sym
  split
  · rename_i h
    constructor
    · intro e; injection e with e; exact ⟨h.1, h.2, e.symm⟩
    · rintro ⟨_, _, e⟩; rw [e]
  · rename_i h
    simp only [reduceCtorEq, false_iff]
    intro ⟨a, b, _⟩; exact h ⟨a, b⟩

theorem sym_throws_iff {c : Fam} {j : Int} : sym c j = .throws ↔ ¬ (0 ≤ j ∧ j < 2 ^ 56) := by
  unfold sym
  split <;> simp_all

theorem chr_inj {c c' : Fam} (h : c.chr = c'.chr) : c = c' := by
  cases c <;> cases c' <;> simp_all [Fam.chr]

theorem chr_bounds (c : Fam) : 98 ≤ c.chr ∧ c.chr ≤ 120 := by cases c <;> simp [Fam.chr]

theorem sym_inj {c c' : Fam} {j j' : Int} {raw : Key} (h : sym c j = .ok raw) (h' : sym c' j' = .ok raw) :
    c = c' ∧ j = j' := by
  rw [sym_ok_iff] at h h'
  obtain ⟨a, b, e⟩ := h
  obtain ⟨a', b', e'⟩ := h'
  have e : c.chr * 2 ^ 56 + j.toNat = c'.chr * 2 ^ 56 + j'.toNat := e.symm.trans e'
  have hc : c.chr = c'.chr := by omega
  refine ⟨chr_inj hc, ?_⟩
  rw [hc] at e
  omega

/-! ### The invariant on values -/

/-- Invariant on the value containers. -/
structure VInv (s : GM Val D) : Prop where
  values : s.values.Sorted
  newValues : s.newValues.Sorted
  coherent : ∀ raw v, s.newValues.find raw = some v → s.values.find raw = some v
  symbols : ∀ raw, s.values.contains raw = true → ∃ c j, sym c j = .ok raw

theorem contains_iff {κ ν : Type} [LinearOrder κ] {m : OMap κ ν} {k : κ} :
    m.contains k = true ↔ ∃ v, m.find k = some v := by
  unfold OMap.contains; exact Option.isSome_iff_exists

theorem contains_assign {κ ν : Type} [LinearOrder κ] {m : OMap κ ν} (h : m.Sorted) (k k' : κ) (v : ν) :
    (m.assign k v).contains k' = (decide (k' = k) || m.contains k') := by
  unfold OMap.contains
  rw [OMap.find_assign h]
  by_cases e : k' = k <;> simp [e]

theorem VInv.new_sub {s : GM Val D} (h : VInv s) {raw : Key} (hc : s.newValues.contains raw = true) :
    s.values.contains raw = true := by
  obtain ⟨v, hv⟩ := contains_iff.1 hc
  exact contains_iff.2 ⟨v, h.coherent _ _ hv⟩

/-- State after a successful `set` of variable `raw`, filed under `k`. -/
def setState (s : GM Val D) (raw : Key) (k : Int) (v : Val) : GM Val D :=
  { s with
    values := s.values.assign raw v
    newValues := if s.values.contains raw && !s.newValues.contains raw then s.newValues
      else s.newValues.assign raw v
    unmarg := if s.values.contains raw then s.unmarg else s.unmarg.alter k (fun o => o.getD [] ++ [raw]) }

theorem set_ok {s : GM Val D} (h : VInv s) {c : Fam} {k : Int} {raw : Key} (hk : sym c k = .ok raw) (v : Val) :
    set c k v s = (.ok (), setState s raw k v) := by
  unfold set
  rw [hk]
  simp only [lift_ok_bind, get_bind]
  by_cases hc : s.values.contains raw = true
  · rw [if_pos hc]
    unfold update setState
    simp only [hc, if_true]
    by_cases hn : s.newValues.contains raw = true <;> simp [hn]
  · rw [if_neg hc]
    have hn : s.newValues.contains raw = false := by
      cases e : s.newValues.contains raw with
      | false => rfl
      | true => exact absurd (h.new_sub e) hc
    unfold add setState
    rw [hk]
    simp only [lift_ok_bind, get_bind]
    rw [if_neg hc]
    simp only [modify_bind, get_bind]
    simp [hn, hc]

theorem set_throws (s : GM Val D) {c : Fam} {k : Int} (hk : sym c k = .throws) (v : Val) :
    set c k v s = (.throws, s) := by
  unfold set; rw [hk]; rfl

theorem vinv_setState {s : GM Val D} (h : VInv s) {c : Fam} {j : Int} {raw : Key} (hk : sym c j = .ok raw) (k : Int)
    (v : Val) : VInv (setState s raw k v) := by
  refine ⟨OMap.sorted_assign h.values _ _, ?_, ?_, ?_⟩
  · simp only [setState]
    split
    · exact h.newValues
    · exact OMap.sorted_assign h.newValues _ _
  · intro r w hr
    simp only [setState] at hr ⊢
    rw [OMap.find_assign h.values]
    split at hr
    · rename_i hc
      by_cases e : r = raw
      · subst e
        simp [OMap.contains, hr] at hc
      · simp only [e, if_false]; exact h.coherent _ _ hr
    · rw [OMap.find_assign h.newValues] at hr
      by_cases e : r = raw
      · simp [e] at hr ⊢; exact hr
      · simp only [e, if_false] at hr ⊢; exact h.coherent _ _ hr
  · intro r hr
    simp only [setState] at hr
    rw [contains_assign h.values] at hr
    simp at hr
    rcases hr with rfl | hr
    · exact ⟨c, j, hk⟩
    · exact h.symbols _ hr

theorem keeps_vinv_set (c : Fam) (k : Int) (v : Val) : Keeps (VInv (Val := Val) (D := D)) (set c k v) := by
  intro s hs
  cases hk : sym c k with
  | ok raw => rw [set_ok hs hk]; exact vinv_setState hs hk _ _
  | throws => rw [set_throws s hk]; exact hs
  | ub => exact absurd hk (sym_ne_ub _ _)

/-- State after a successful `update`. -/
def updateState (s : GM Val D) (raw : Key) (v : Val) : GM Val D :=
  { s with
    values := s.values.assign raw v
    newValues := if s.newValues.contains raw then s.newValues.assign raw v else s.newValues }

theorem update_run (s : GM Val D) (raw : Key) (v : Val) :
    update raw v s = if s.values.contains raw then (.ok (), updateState s raw v) else (.throws, s) := by
  unfold update updateState
  dsimp only
  split
  · split <;> rfl
  · rfl

theorem vinv_updateState {s : GM Val D} (h : VInv s) {raw : Key} (hc : s.values.contains raw = true) (v : Val) :
    VInv (updateState s raw v) := by
  refine ⟨OMap.sorted_assign h.values _ _, ?_, ?_, ?_⟩
  · simp only [updateState]
    split
    · exact OMap.sorted_assign h.newValues _ _
    · exact h.newValues
  · intro r w hr
    simp only [updateState] at hr ⊢
    rw [OMap.find_assign h.values]
    split at hr
    · rw [OMap.find_assign h.newValues] at hr
      by_cases e : r = raw
      · simp [e] at hr ⊢; exact hr
      · simp only [e, if_false] at hr ⊢; exact h.coherent _ _ hr
    · rename_i hc
      by_cases e : r = raw
      · subst e; simp [OMap.contains, hr] at hc
      · simp only [e, if_false]; exact h.coherent _ _ hr
  · intro r hr
    simp only [updateState] at hr
    rw [contains_assign h.values] at hr
    simp at hr
    rcases hr with rfl | hr
    · exact h.symbols _ hc
    · exact h.symbols _ hr

theorem keeps_vinv_update (raw : Key) (v : Val) : Keeps (VInv (Val := Val) (D := D)) (update raw v) := by
  intro s hs
  rw [update_run]
  split
  · rename_i hc; exact vinv_updateState hs hc v
  · exact hs

theorem keeps_updateFromValues' {P : GM Val D → Prop} (h : ∀ raw v, Keeps P (update raw v))
    (vs : List (Key × Val)) : Keeps P (updateFromValues vs) := by
  induction vs with
  | nil => exact Keeps.pure _
  | cons e vs ih =>
    obtain ⟨k, v⟩ := e
    unfold updateFromValues
    exact Keeps.bind (h _ _) fun _ => ih

theorem vinv_indep_factors : IndepFactors (VInv (Val := Val) (D := D)) :=
  fun _ _ _ h => ⟨h.values, h.newValues, h.coherent, h.symbols⟩

theorem vinv_indep_stereo : IndepStereo (VInv (Val := Val) (D := D)) :=
  fun _ _ _ _ h => ⟨h.values, h.newValues, h.coherent, h.symbols⟩

theorem vinv_of_newValues {s : GM Val D} (h : VInv s) {n : OMap Key Val} {l : OMap Int (List Int)} (hn : n.Sorted)
    (hsub : ∀ raw v, n.find raw = some v → s.newValues.find raw = some v) :
    VInv { s with newValues := n, newLandmarkIds := l } :=
  ⟨h.values, hn, fun r v hr => h.coherent _ _ (hsub r v hr), h.symbols⟩

/-- Erasing every key of a list. -/
theorem find_foldl_erase {κ ν μ : Type} [LinearOrder κ] (l : List (κ × μ)) (m : OMap κ ν) (k : κ) :
    (l.foldl (fun m e => m.erase e.1) m).find k = if k ∈ l.map Prod.fst then none else m.find k := by
  induction l generalizing m with
  | nil => simp
  | cons a l ih =>
    rw [List.foldl_cons, ih, OMap.find_erase]
    by_cases h : k ∈ l.map Prod.fst
    · simp only [h, if_true, List.map_cons, List.mem_cons, or_true]
    · by_cases e : k = a.1 <;> simp [h, e]

theorem sorted_foldl_erase {κ ν μ : Type} [LinearOrder κ] (l : List (κ × μ)) (m : OMap κ ν) (h : m.Sorted) :
    (l.foldl (fun m e => m.erase e.1) m).Sorted := by
  induction l generalizing m with
  | nil => exact h
  | cons a l ih => exact ih _ (OMap.sorted_erase h _)

/-- Shape of the state after `extract_new_values`. -/
theorem extractNewValues_cases (er : EndRead) (m : Int) (s : GM Val D) :
    (∃ o l, (o = .throws ∨ o = .ub) ∧ extractNewValues er m s = (o, { s with newLandmarkIds := l })) ∨
    ∃ ext l, extractNewValues er m s =
      (.ok ext, { s with newLandmarkIds := l, newValues := ext.foldl (fun m e => m.erase e.1) s.newValues }) := by
  unfold extractNewValues
  split
  · exact Or.inl ⟨_, s.newLandmarkIds, Or.inl rfl, rfl⟩
  · exact Or.inl ⟨_, s.newLandmarkIds, Or.inr rfl, rfl⟩
  · dsimp only
    split
    · exact Or.inr ⟨_, _, rfl⟩
    · exact Or.inl ⟨_, _, Or.inl rfl, rfl⟩
    · exact Or.inl ⟨_, _, Or.inr rfl, rfl⟩

theorem keeps_vinv_extractNewValues (er : EndRead) (m : Int) :
    Keeps (VInv (Val := Val) (D := D)) (extractNewValues er m) := by
  intro s h
  rcases extractNewValues_cases er m s with ⟨o, l, _, e⟩ | ⟨ext, l, e⟩
  · rw [e]; exact vinv_of_newValues h (n := s.newValues) h.newValues (fun _ _ h => h)
  · rw [e]
    refine vinv_of_newValues h (sorted_foldl_erase _ _ h.newValues) ?_
    intro r v hr
    rw [find_foldl_erase] at hr
    split at hr
    · simp at hr
    · exact hr

theorem step_vinv {er : EndRead} {op : Op Val D} {s s' : GM Val D} {r : Resp Val D}
    (h : step er op s = some (r, s')) (hs : VInv s) : VInv s' := by
  rw [step_state h]
  cases op with
  | setNamedKey n k p =>
    simp only [stateAfter, setNamedKey, modify_run]
    split <;> exact ⟨hs.values, hs.newValues, hs.coherent, hs.symbols⟩
  | increment n =>
    simp only [stateAfter, increment]
    split
    · exact ⟨hs.values, hs.newValues, hs.coherent, hs.symbols⟩
    · exact hs
  | setPose k v => exact keeps_vinv_set _ _ _ _ hs
  | setVelocity k v => exact keeps_vinv_set _ _ _ _ hs
  | setImuBias k v => exact keeps_vinv_set _ _ _ _ hs
  | setBarometerBias k v => exact keeps_vinv_set _ _ _ _ hs
  | setNavstate k p v =>
    exact Keeps.bind (m := set .X k p) (keeps_vinv_set _ _ _) (fun _ => keeps_vinv_set _ _ _) _ hs
  | setTimestamp k t => exact ⟨hs.values, hs.newValues, hs.coherent, hs.symbols⟩
  | create kind k d => exact keeps_createFactor vinv_indep_factors _ _ _ _ hs
  | stereo k fs =>
    exact keeps_createStereo (fun _ _ => keeps_vinv_set _ _ _) vinv_indep_factors vinv_indep_stereo _ _ _ hs
  | setExtrinsic => exact ⟨hs.values, hs.newValues, hs.coherent, hs.symbols⟩
  | setCalibration bp => exact ⟨hs.values, hs.newValues, hs.coherent, hs.symbols⟩
  | updateFromValues vs => exact keeps_updateFromValues' keeps_vinv_update _ _ hs
  | extractFactors m => exact vinv_indep_factors _ s.factors _ hs
  | extractValues m => exact keeps_vinv_extractNewValues _ _ _ hs
  | extractKeys m => exact ⟨hs.values, hs.newValues, hs.coherent, hs.symbols⟩

theorem vinv_init : VInv ({} : GM Val D) :=
  ⟨OMap.sorted_nil, OMap.sorted_nil, by simp, by simp [OMap.contains]⟩

theorem reaches_vinv {er : EndRead} {log : Log Val D} {s : GM Val D} (h : Reaches er log s) : VInv s := by
  induction h with
  | init => exact vinv_init
  | step _ hs ih => exact step_vinv hs ih

/-! ### `update_from_values` -/

theorem updateFromValues_spec (vs : OMap Key Val) (hv : vs.Sorted) (s : GM Val D) (h : VInv s) :
    let r := updateFromValues vs s
    (∀ raw, r.2.values.contains raw = s.values.contains raw) ∧
    (∀ raw, r.2.newValues.contains raw = s.newValues.contains raw) ∧
    ((∀ e ∈ vs, s.values.contains e.1 = true) → r.1 = .ok () ∧
      ∀ raw, r.2.values.find raw = (match vs.find raw with | some v => some v | none => s.values.find raw)) ∧
    ((∃ e ∈ vs, s.values.contains e.1 = false) → r.1 = .throws ∧
      ∀ raw, r.2.values.find raw = s.values.find raw ∨ r.2.values.find raw = vs.find raw) := by
  induction vs generalizing s with
  | nil => simp [updateFromValues]
  | cons e vs ih =>
    obtain ⟨k, v⟩ := e
    have hv' := OMap.sorted_cons.1 hv
    simp only [updateFromValues]
    rw [bind_run, update_run]
    by_cases hc : s.values.contains k = true
    · rw [if_pos hc]
      dsimp only
      have h1 := vinv_updateState h hc v
      obtain ⟨i1, i2, i3, i4⟩ := ih hv'.2 (updateState s k v) h1
      have e1 : ∀ raw, (updateState s k v).values.contains raw = s.values.contains raw := by
        intro raw
        simp only [updateState]
        rw [contains_assign h.values]
        by_cases e : raw = k
        · subst e; simp [hc]
        · simp [e]
      have e2 : ∀ raw, (updateState s k v).newValues.contains raw = s.newValues.contains raw := by
        intro raw
        simp only [updateState]
        split
        · rename_i hn
          rw [contains_assign h.newValues]
          by_cases e : raw = k
          · subst e; simp [hn]
          · simp [e]
        · rfl
      have hnk : OMap.find vs k = none := OMap.find_eq_none_of_lt hv'.1
      refine ⟨fun raw => by rw [i1, e1], fun raw => by rw [i2, e2], ?_, ?_⟩
      · intro hall
        obtain ⟨j1, j2⟩ := i3 (fun e he => by rw [e1]; exact hall e (List.mem_cons_of_mem _ he))
        refine ⟨j1, fun raw => ?_⟩
        rw [j2, OMap.find_cons]
        by_cases e : raw = k
        · subst e; simp [hnk, updateState, OMap.find_assign h.values]
        · simp [e, updateState, OMap.find_assign h.values]
      · rintro ⟨e, he, hne⟩
        have he' : ∃ e ∈ vs, (updateState s k v).values.contains e.1 = false := by
          rcases List.mem_cons.1 he with rfl | he
          · simp [hc] at hne
          · exact ⟨e, he, by rw [e1]; exact hne⟩
        obtain ⟨j1, j2⟩ := i4 he'
        refine ⟨j1, fun raw => ?_⟩
        rw [OMap.find_cons]
        by_cases e : raw = k
        · subst e
          rcases j2 raw with j2 | j2
          · right; rw [j2]; simp [updateState, OMap.find_assign h.values]
          · -- the variable cannot have disappeared
            rw [hnk] at j2
            have hcc := i1 raw
            rw [e1, hc] at hcc
            simp [OMap.contains, j2] at hcc
        · rcases j2 raw with j2 | j2
          · left; rw [j2]; simp [e, updateState, OMap.find_assign h.values]
          · right; simp [e, j2]
    · rw [if_neg hc]
      refine ⟨fun _ => rfl, fun _ => rfl, fun hall => ?_, fun _ => ⟨rfl, fun _ => Or.inl rfl⟩⟩
      exact absurd (hall _ List.mem_cons_self) hc

end Graph

end Serpent
