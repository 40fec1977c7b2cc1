import Verif.Lemmas.GraphStereo

/-!
# Lemmas on the extraction of value ranges
-/

namespace Serpent

namespace Graph

open M

variable {Val D : Type}

theorem find_dropWhile_lt {vals : OMap Key Val} (h : vals.Sorted) (first k : Key) :
    OMap.find (vals.dropWhile (fun e => decide (e.1 < first))) k = if first ≤ k then vals.find k else none := by
  induction vals with
  | nil => simp
  | cons e vals ih =>
    have h' := OMap.sorted_cons.1 h
    rw [List.dropWhile_cons]
    split
    · rename_i hlt
      simp only [decide_eq_true_eq] at hlt
      rw [ih h'.2, OMap.find_cons]
      split
      · rename_i hle
        rw [if_neg]
        intro e; rw [e] at hle; exact absurd hle (not_le.2 hlt)
      · rfl
    · rename_i hge
      simp only [decide_eq_true_eq, not_lt] at hge
      split
      · rfl
      · rename_i hk
        rw [not_le] at hk
        apply OMap.find_eq_none_of_lt
        intro x hx
        rcases List.mem_cons.1 hx with rfl | hx
        · exact lt_of_lt_of_le hk hge
        · exact lt_trans (lt_of_lt_of_le hk hge) (h'.1 x hx)

theorem sorted_dropWhile {κ ν : Type} [LinearOrder κ] {m : OMap κ ν} (h : m.Sorted) (p : κ × ν → Bool) :
    OMap.Sorted (m.dropWhile p) := List.Pairwise.sublist (List.dropWhile_sublist p) h

theorem mem_dropWhile_lt {vals : OMap Key Val} (h : vals.Sorted) {first : Key} {e : Key × Val}
    (he : e ∈ vals.dropWhile (fun e => decide (e.1 < first))) : first ≤ e.1 := by
  have h1 := OMap.find_of_mem (sorted_dropWhile h _) he
  rw [find_dropWhile_lt h] at h1
  by_contra hlt
  rw [if_neg hlt] at h1
  simp at h1

/-- The loop copies exactly the range, or (standard's reading only) runs into the end. -/
theorem addValuesLoop_any (er : EndRead) {n : Nat} {first last : Key} (hn : n < first) (l : OMap Key Val)
    (acc : OMap Key Val) (hl : l.Sorted) (ha : acc.Sorted) (hge : ∀ e ∈ l, first ≤ e.1)
    (hdis : ∀ e ∈ l, e.1 ≤ last → acc.find e.1 = none) :
    (er = .undefined ∧ addValuesLoop er n first last l acc = .ub) ∨
    ∃ acc', addValuesLoop er n first last l acc = .ok acc' ∧ acc'.Sorted ∧
      ∀ k, acc'.find k = if k ≤ last ∧ (l.find k).isSome then l.find k else acc.find k := by
  induction l generalizing acc with
  | nil =>
    cases er with
    | undefined => left; exact ⟨rfl, rfl⟩
    | nodeCount =>
      right
      refine ⟨acc, ?_, ha, by simp⟩
      simp only [addValuesLoop]
      rw [if_neg]
      intro h; exact absurd h.1 (not_le.2 hn)
  | cons e l ih =>
    obtain ⟨k0, v⟩ := e
    have hl' := OMap.sorted_cons.1 hl
    simp only [addValuesLoop]
    split
    · rename_i hin
      have hnone : acc.find k0 = none := hdis (k0, v) List.mem_cons_self hin.2
      have hc : acc.contains k0 = false := by simp [OMap.contains, hnone]
      rw [hc]
      simp only [Bool.false_eq_true, if_false]
      rcases ih (acc.assign k0 v) hl'.2 (OMap.sorted_assign ha _ _)
        (fun e he => hge e (List.mem_cons_of_mem _ he)) (by
          intro e he hle
          rw [OMap.find_assign ha, if_neg (ne_of_gt (hl'.1 e he))]
          exact hdis e (List.mem_cons_of_mem _ he) hle) with h | ⟨acc', e1, e2, e3⟩
      · left; exact h
      · right
        refine ⟨acc', e1, e2, fun k => ?_⟩
        rw [e3, OMap.find_cons, OMap.find_assign ha]
        by_cases hk : k = k0
        · subst hk
          rw [OMap.find_eq_none_of_lt hl'.1]
          simp [hin.2]
        · simp only [hk, if_false]
    · rename_i hout
      have hgt : last < k0 := by
        by_contra h
        exact hout ⟨hge _ List.mem_cons_self, not_lt.1 h⟩
      right
      refine ⟨acc, rfl, ha, fun k => ?_⟩
      rw [if_neg]
      rintro ⟨h1, h2⟩
      have : OMap.find ((k0, v) :: l) k = none := by
        apply OMap.find_eq_none_of_lt
        intro x hx
        rcases List.mem_cons.1 hx with rfl | hx
        · exact lt_of_le_of_lt h1 hgt
        · exact lt_trans (lt_of_le_of_lt h1 hgt) (hl'.1 x hx)
      rw [this] at h2; simp at h2

/-- `add_values` copies exactly the range, or (standard's reading only) is undefined. -/
theorem addValues_any (er : EndRead) {vals acc : OMap Key Val} (hv : vals.Sorted) (ha : acc.Sorted) {first last : Key}
    (hn : vals.length < first) (hdis : ∀ k, first ≤ k → k ≤ last → acc.find k = none) :
    (er = .undefined ∧ addValues er acc vals first last = .ub) ∨
    ∃ acc', addValues er acc vals first last = .ok acc' ∧ acc'.Sorted ∧
      ∀ k, acc'.find k = if first ≤ k ∧ k ≤ last then vals.find k else acc.find k := by
  rcases addValuesLoop_any er (last := last) hn
    (vals.dropWhile (fun e => decide (e.1 < first))) acc (sorted_dropWhile hv _) ha
    (fun e he => mem_dropWhile_lt hv he) (fun e he hle => hdis _ (mem_dropWhile_lt hv he) hle) with
    h | ⟨acc', e1, e2, e3⟩
  · left; exact h
  · right
    refine ⟨acc', e1, e2, fun k => ?_⟩
    rw [e3, find_dropWhile_lt hv]
    by_cases h1 : first ≤ k
    · by_cases h2 : k ≤ last
      · simp only [h1, h2, if_true, true_and]
        cases hf : vals.find k with
        | none => simp [hdis k h1 h2]
        | some v => simp
      · simp [h2]
    · simp [h1]

theorem addValuesLoop_undefined {n : Nat} {first last : Key} (l : OMap Key Val) (acc : OMap Key Val)
    (hle : ∀ e ∈ l, e.1 ≤ last) (hge : ∀ e ∈ l, first ≤ e.1) (ha : acc.Sorted) (hl : l.Sorted)
    (hdis : ∀ e ∈ l, acc.find e.1 = none) :
    addValuesLoop .undefined n first last l acc = .ub := by
  induction l generalizing acc with
  | nil => rfl
  | cons e l ih =>
    obtain ⟨k0, v⟩ := e
    have hl' := OMap.sorted_cons.1 hl
    simp only [addValuesLoop]
    rw [if_pos ⟨hge _ List.mem_cons_self, hle _ List.mem_cons_self⟩]
    have hnone : acc.find k0 = none := hdis (k0, v) List.mem_cons_self
    have hc : acc.contains k0 = false := by simp [OMap.contains, hnone]
    rw [hc]
    simp only [Bool.false_eq_true, if_false]
    apply ih
    · exact fun e he => hle e (List.mem_cons_of_mem _ he)
    · exact fun e he => hge e (List.mem_cons_of_mem _ he)
    · exact OMap.sorted_assign ha _ _
    · exact hl'.2
    · intro e he
      rw [OMap.find_assign ha, if_neg (ne_of_gt (hl'.1 e he))]
      exact hdis e (List.mem_cons_of_mem _ he)

/-- With the standard's reading, `add_values` is undefined when no key lies above the range. -/
theorem addValues_undefined {vals acc : OMap Key Val} (hv : vals.Sorted) (ha : acc.Sorted) {first last : Key}
    (htop : ∀ e ∈ vals, e.1 ≤ last) (hdis : ∀ e ∈ vals, first ≤ e.1 → acc.find e.1 = none) :
    addValues .undefined acc vals first last = .ub := by
  apply addValuesLoop_undefined
  · exact fun e he => htop e (List.dropWhile_sublist _ |>.subset he)
  · exact fun e he => mem_dropWhile_lt hv he
  · exact ha
  · exact sorted_dropWhile hv _
  · exact fun e he => hdis e (List.dropWhile_sublist _ |>.subset he) (mem_dropWhile_lt hv he)

/-! ### The number of values is below every key -/

theorem symbols_length {m : OMap Key Val} (hs : m.Sorted)
    (h : ∀ e ∈ m, ∃ c j, sym c j = .ok e.1) : m.length < 98 * 2 ^ 56 := by
  have hnd : (m.map Prod.fst).Nodup := by
    have hp : List.Pairwise (fun a b : Key => a < b) (m.map Prod.fst) := by
      rw [List.pairwise_map]; exact hs
    exact hp.imp (fun h => ne_of_lt h)
  have hsub : (m.map Prod.fst).toFinset ⊆ Finset.Ico (98 * 2 ^ 56) (121 * 2 ^ 56) := by
    intro k hk
    rw [List.mem_toFinset, List.mem_map] at hk
    obtain ⟨e, he, rfl⟩ := hk
    obtain ⟨c, j, hcj⟩ := h e he
    obtain ⟨h1, h2, h3⟩ := sym_ok_iff.1 hcj
    have hb := chr_bounds c
    have h3 : (e.1 : Nat) = c.chr * 2 ^ 56 + j.toNat := h3
    rw [Finset.mem_Ico, h3]
    omega
  have hcard := Finset.card_le_card hsub
  rw [List.toFinset_card_of_nodup hnd, Nat.card_Ico, List.length_map] at hcard
  omega

theorem VInv.values_length {s : GM Val D} (h : VInv s) : s.values.length < 98 * 2 ^ 56 :=
  symbols_length h.values fun _ he =>
    h.symbols _ (contains_iff.2 ⟨_, OMap.find_of_mem h.values he⟩)

theorem VInv.newValues_length {s : GM Val D} (h : VInv s) : s.newValues.length < 98 * 2 ^ 56 :=
  symbols_length h.newValues fun _ he =>
    h.symbols _ (h.new_sub (contains_iff.2 ⟨_, OMap.find_of_mem h.newValues he⟩))

/-- Raw key of family `c` with index in `[first, last]`. -/
def InFam (c : Fam) (first last : Int) (raw : Key) : Prop := ∃ j, first ≤ j ∧ j ≤ last ∧ sym c j = .ok raw

theorem inFam_iff {c : Fam} {first last : Int} {a b raw : Key} (ha : sym c first = .ok a) (hb : sym c last = .ok b) :
    InFam c first last raw ↔ a ≤ raw ∧ raw ≤ b := by
  obtain ⟨a1, a2, a3⟩ := sym_ok_iff.1 ha
  obtain ⟨b1, b2, b3⟩ := sym_ok_iff.1 hb
  have a3 : (a : Nat) = c.chr * 2 ^ 56 + first.toNat := a3
  have b3 : (b : Nat) = c.chr * 2 ^ 56 + last.toNat := b3
  show _ ↔ (a : Nat) ≤ raw ∧ (raw : Nat) ≤ b
  constructor
  · rintro ⟨j, h1, h2, h3⟩
    obtain ⟨c1, c2, c3⟩ := sym_ok_iff.1 h3
    have c3 : (raw : Nat) = c.chr * 2 ^ 56 + j.toNat := c3
    omega
  · rintro ⟨h1, h2⟩
    refine ⟨((raw : Nat) : Int) - (c.chr * 2 ^ 56 : Nat), by omega, by omega, ?_⟩
    rw [sym_ok_iff]
    refine ⟨by omega, by omega, ?_⟩
    show (raw : Nat) = _
    omega

theorem inFam_disjoint {c c' : Fam} {f l f' l' : Int} {raw : Key} (h : InFam c f l raw) (h' : InFam c' f' l' raw) :
    c = c' := by
  obtain ⟨j, _, _, h⟩ := h
  obtain ⟨j', _, _, h'⟩ := h'
  exact (sym_inj h h').1

/-- The families are copied exactly, when their indices are representable. -/
theorem addFamilies_any (er : EndRead) {vals : OMap Key Val} (hv : vals.Sorted) (hlen : vals.length < 98 * 2 ^ 56)
    {first last : Int} (h1 : 0 ≤ first) (h1' : first < 2 ^ 56) (h2 : 0 ≤ last) (h2' : last < 2 ^ 56)
    (cs : List Fam) (hnd : cs.Nodup) (acc : OMap Key Val) (ha : acc.Sorted)
    (hdis : ∀ c ∈ cs, ∀ raw, InFam c first last raw → acc.find raw = none) :
    (er = .undefined ∧ addFamilies er vals first last acc cs = .ub) ∨
    ∃ acc', addFamilies er vals first last acc cs = .ok acc' ∧ acc'.Sorted ∧
      ∀ raw, ((∃ c ∈ cs, InFam c first last raw) → acc'.find raw = vals.find raw) ∧
        ((¬ ∃ c ∈ cs, InFam c first last raw) → acc'.find raw = acc.find raw) := by
  induction cs generalizing acc with
  | nil => right; exact ⟨acc, rfl, ha, by simp⟩
  | cons c cs ih =>
    have ea : sym c first = .ok (c.chr * 2 ^ 56 + first.toNat) := sym_ok_iff.2 ⟨h1, h1', rfl⟩
    have eb : sym c last = .ok (c.chr * 2 ^ 56 + last.toNat) := sym_ok_iff.2 ⟨h2, h2', rfl⟩
    simp only [addFamilies, ea, eb, Outcome.bind_ok]
    have hb := chr_bounds c
    rcases addValues_any er hv ha (first := c.chr * 2 ^ 56 + first.toNat)
      (last := c.chr * 2 ^ 56 + last.toNat) (by omega)
      (fun k hk1 hk2 => hdis c List.mem_cons_self k ((inFam_iff ea eb).2 ⟨hk1, hk2⟩)) with
      ⟨h3, h4⟩ | ⟨acc1, e1, e2, e3⟩
    · left; rw [h4]; exact ⟨h3, rfl⟩
    · rw [e1]
      simp only [Outcome.bind_ok]
      rw [List.nodup_cons] at hnd
      rcases ih hnd.2 acc1 e2 (by
        intro c' hc' raw hraw
        rw [e3, if_neg]
        · exact hdis c' (List.mem_cons_of_mem _ hc') raw hraw
        · rw [← inFam_iff ea eb]
          intro h
          exact hnd.1 (inFam_disjoint h hraw ▸ hc')) with h | ⟨acc2, i1, i2, i3⟩
      · left; exact h
      · right
        refine ⟨acc2, i1, i2, fun raw => ⟨?_, ?_⟩⟩
        · rintro ⟨c', hc', hraw⟩
          by_cases hin : ∃ c ∈ cs, InFam c first last raw
          · exact (i3 raw).1 hin
          · rw [(i3 raw).2 hin, e3, if_pos]
            rw [← inFam_iff ea eb]
            rcases List.mem_cons.1 hc' with rfl | hc'
            · exact hraw
            · exact absurd ⟨c', hc', hraw⟩ hin
        · intro hnin
          rw [(i3 raw).2 (fun ⟨c', hc', h⟩ => hnin ⟨c', List.mem_cons_of_mem _ hc', h⟩), e3, if_neg]
          rw [← inFam_iff ea eb]
          exact fun h => hnin ⟨c, List.mem_cons_self, h⟩

theorem addFamilies_throws (er : EndRead) (vals : OMap Key Val) {first last : Int} (hm : ¬ (0 ≤ last ∧ last < 2 ^ 56))
    (hf : 0 ≤ first ∧ first < 2 ^ 56) (acc : OMap Key Val) (c : Fam) (cs : List Fam) :
    addFamilies er vals first last acc (c :: cs) = .throws := by
  simp only [addFamilies]
  rw [sym_ok_iff.2 ⟨hf.1, hf.2, rfl⟩, sym_throws_iff.2 hm]
  rfl

/-! ### Landmarks -/

/-- What a successful insertion of landmarks did. -/
theorem insertLandmarks_ok {vals : OMap Key Val} (ids : List Int) (acc acc' : OMap Key Val) (ha : acc.Sorted)
    (h : insertLandmarks vals ids acc = .ok acc') :
    acc'.Sorted ∧ (∀ id ∈ ids, ∃ raw, sym .S id = .ok raw ∧ vals.contains raw = true ∧ acc.contains raw = false) ∧
    ids.Nodup ∧
    ∀ raw, ((∃ id ∈ ids, sym .S id = .ok raw) → acc'.find raw = vals.find raw) ∧
      ((¬ ∃ id ∈ ids, sym .S id = .ok raw) → acc'.find raw = acc.find raw) := by
  induction ids generalizing acc with
  | nil => simp [insertLandmarks] at h; subst h; simp [ha]
  | cons id ids ih =>
    simp only [insertLandmarks] at h
    cases hk : sym .S id with
    | throws => simp [hk] at h
    | ub => simp [hk] at h
    | ok raw =>
      rw [hk] at h
      simp only [Outcome.bind_ok] at h
      cases hf : vals.find raw with
      | none => simp [hf] at h
      | some v =>
        simp only [hf] at h
        cases hc : acc.contains raw with
        | true => simp [hc] at h
        | false =>
          simp only [hc, Bool.false_eq_true, if_false] at h
          obtain ⟨i1, i2, i3, i4⟩ := ih _ (OMap.sorted_assign ha _ _) h
          refine ⟨i1, ?_, ?_, ?_⟩
          · intro id' hid'
            rcases List.mem_cons.1 hid' with rfl | hid'
            · exact ⟨raw, hk, contains_iff.2 ⟨v, hf⟩, hc⟩
            · obtain ⟨r, r1, r2, r3⟩ := i2 id' hid'
              rw [contains_assign ha] at r3
              simp at r3
              exact ⟨r, r1, r2, r3.2⟩
          · rw [List.nodup_cons]
            refine ⟨fun hid => ?_, i3⟩
            obtain ⟨r, r1, r2, r3⟩ := i2 id hid
            rw [contains_assign ha] at r3
            rw [hk] at r1
            injection r1 with r1
            simp [r1] at r3
          · intro r
            constructor
            · rintro ⟨id', hid', hr⟩
              by_cases hin : ∃ id ∈ ids, sym .S id = .ok r
              · exact (i4 r).1 hin
              · rw [(i4 r).2 hin, OMap.find_assign ha]
                rcases List.mem_cons.1 hid' with rfl | hid'
                · rw [hk] at hr; injection hr with hr; subst hr; simp [hf]
                · exact absurd ⟨id', hid', hr⟩ hin
            · intro hnin
              rw [(i4 r).2 (fun ⟨a, b, c⟩ => hnin ⟨a, List.mem_cons_of_mem _ b, c⟩), OMap.find_assign ha, if_neg]
              intro e
              exact hnin ⟨id, List.mem_cons_self, by rw [e]; exact hk⟩

/-- When the landmark values exist and are new, the insertion succeeds. -/
theorem insertLandmarks_succeeds {vals : OMap Key Val} (ids : List Int) (acc : OMap Key Val) (ha : acc.Sorted)
    (hnd : ids.Nodup) (h : ∀ id ∈ ids, ∃ raw, sym .S id = .ok raw ∧ vals.contains raw = true ∧
      acc.contains raw = false) : ∃ acc', insertLandmarks vals ids acc = .ok acc' := by
  induction ids generalizing acc with
  | nil => exact ⟨acc, rfl⟩
  | cons id ids ih =>
    obtain ⟨raw, h1, h2, h3⟩ := h id List.mem_cons_self
    obtain ⟨v, hv⟩ := contains_iff.1 h2
    rw [List.nodup_cons] at hnd
    simp only [insertLandmarks, h1, Outcome.bind_ok, hv, h3, Bool.false_eq_true, if_false]
    apply ih _ (OMap.sorted_assign ha _ _) hnd.2
    intro id' hid'
    obtain ⟨r, r1, r2, r3⟩ := h id' (List.mem_cons_of_mem _ hid')
    refine ⟨r, r1, r2, ?_⟩
    rw [contains_assign ha, r3]
    simp only [Bool.or_false, decide_eq_false_iff_not]
    intro e
    subst e
    exact hnd.1 ((sym_inj h1 r1).2 ▸ hid')

theorem insertLandmarks_append {vals : OMap Key Val} (a b : List Int) (acc : OMap Key Val) :
    insertLandmarks vals (a ++ b) acc = (insertLandmarks vals a acc >>= insertLandmarks vals b) := by
  induction a generalizing acc with
  | nil => rfl
  | cons id a ih =>
    simp only [List.cons_append, insertLandmarks]
    cases sym .S id with
    | throws => rfl
    | ub => rfl
    | ok raw =>
      simp only [Outcome.bind_ok]
      cases vals.find raw with
      | none => rfl
      | some v =>
        dsimp only
        split
        · rfl
        · exact ih _

/-- The ids filed under keys satisfying `p`, in key order. -/
def idsWhere (m : OMap Int (List Int)) (p : Int → Bool) : List Int :=
  (m.filter (fun e => p e.1)).flatMap (fun e => e.2)

theorem mem_idsWhere {m : OMap Int (List Int)} {p : Int → Bool} {id : Int} :
    id ∈ idsWhere m p ↔ ∃ k ids, (k, ids) ∈ m ∧ p k = true ∧ id ∈ ids := by
  unfold idsWhere
  simp only [List.mem_flatMap, List.mem_filter]
  constructor
  · rintro ⟨⟨k, ids⟩, ⟨h1, h2⟩, h3⟩; exact ⟨k, ids, h1, h2, h3⟩
  · rintro ⟨k, ids, h1, h2, h3⟩; exact ⟨(k, ids), ⟨h1, h2⟩, h3⟩

theorem idsWhere_nil_of_gt {m : OMap Int (List Int)} {b : Int} (h : ∀ e ∈ m, b < e.1) :
    idsWhere m (fun k => decide (k ≤ b)) = [] := by
  unfold idsWhere
  rw [List.filter_eq_nil_iff.2]
  · rfl
  · intro e he; have := h e he; simp; omega

theorem valuesLandmarkLoop_eq {vals : OMap Key Val} {last : Int} (m : OMap Int (List Int)) (hm : m.Sorted)
    (acc : OMap Key Val) :
    valuesLandmarkLoop vals last m acc = insertLandmarks vals (idsWhere m (fun k => decide (k ≤ last))) acc := by
  induction m generalizing acc with
  | nil => rfl
  | cons e m ih =>
    obtain ⟨k, ids⟩ := e
    have hm' := OMap.sorted_cons.1 hm
    simp only [valuesLandmarkLoop]
    split
    · rename_i hk
      have : idsWhere ((k, ids) :: m) (fun k => decide (k ≤ last)) =
          ids ++ idsWhere m (fun k => decide (k ≤ last)) := by
        simp [idsWhere, hk]
      rw [this, insertLandmarks_append]
      congr 1
      funext acc'
      exact ih hm'.2 acc'
    · rename_i hk
      rw [idsWhere_nil_of_gt]
      · rfl
      · intro e he
        rcases List.mem_cons.1 he with rfl | he
        · exact not_le.1 hk
        · exact lt_trans (not_le.1 hk) (hm'.1 e he)

theorem extractLandmarkLoop_ok {vals : OMap Key Val} {mk : Int} (m : OMap Int (List Int)) (hm : m.Sorted)
    (acc acc' : OMap Key Val) (rest : OMap Int (List Int))
    (h : extractLandmarkLoop vals mk m acc = (.ok acc', rest)) :
    insertLandmarks vals (idsWhere m (fun k => decide (k ≤ mk))) acc = .ok acc' ∧
    rest = m.filter (fun e => decide (mk < e.1)) := by
  induction m generalizing acc with
  | nil => simp [extractLandmarkLoop] at h; obtain ⟨rfl, rfl⟩ := h; simp [idsWhere, insertLandmarks]
  | cons e m ih =>
    obtain ⟨k, ids⟩ := e
    have hm' := OMap.sorted_cons.1 hm
    simp only [extractLandmarkLoop] at h
    split at h
    · rename_i hk
      have e1 : idsWhere ((k, ids) :: m) (fun k => decide (k ≤ mk)) =
          ids ++ idsWhere m (fun k => decide (k ≤ mk)) := by
        simp [idsWhere, hk]
      rw [e1, insertLandmarks_append]
      split at h
      · rename_i a ha
        obtain ⟨i1, i2⟩ := ih hm'.2 _ h
        rw [ha]
        refine ⟨i1, ?_⟩
        rw [i2, List.filter_cons, if_neg]
        simp; exact hk
      · simp at h
      · simp at h
    · rename_i hk
      simp at h
      obtain ⟨rfl, rfl⟩ := h
      have hall : ∀ e ∈ (k, ids) :: m, mk < e.1 := by
        intro e he
        rcases List.mem_cons.1 he with rfl | he
        · exact not_le.1 hk
        · exact lt_trans (not_le.1 hk) (hm'.1 e he)
      refine ⟨?_, ?_⟩
      · rw [idsWhere_nil_of_gt hall]; rfl
      · rw [List.filter_eq_self.2]
        intro e he; simpa using hall e he

theorem extractLandmarkLoop_of_insert {vals : OMap Key Val} {mk : Int} (m : OMap Int (List Int)) (hm : m.Sorted)
    (acc acc' : OMap Key Val)
    (h : insertLandmarks vals (idsWhere m (fun k => decide (k ≤ mk))) acc = .ok acc') :
    extractLandmarkLoop vals mk m acc = (.ok acc', m.filter (fun e => decide (mk < e.1))) := by
  induction m generalizing acc with
  | nil => simp [idsWhere, insertLandmarks] at h; subst h; rfl
  | cons e m ih =>
    obtain ⟨k, ids⟩ := e
    have hm' := OMap.sorted_cons.1 hm
    simp only [extractLandmarkLoop]
    split
    · rename_i hk
      have e1 : idsWhere ((k, ids) :: m) (fun k => decide (k ≤ mk)) =
          ids ++ idsWhere m (fun k => decide (k ≤ mk)) := by
        simp [idsWhere, hk]
      rw [e1, insertLandmarks_append] at h
      cases hi : insertLandmarks vals ids acc with
      | throws => rw [hi] at h; simp at h
      | ub => rw [hi] at h; simp at h
      | ok a =>
        rw [hi] at h
        dsimp only
        rw [ih hm'.2 a h, List.filter_cons, if_neg]
        simp; exact hk
    · rename_i hk
      have hall : ∀ e ∈ (k, ids) :: m, mk < e.1 := by
        intro e he
        rcases List.mem_cons.1 he with rfl | he
        · exact not_le.1 hk
        · exact lt_trans (not_le.1 hk) (hm'.1 e he)
      rw [idsWhere_nil_of_gt hall] at h
      simp [insertLandmarks] at h
      rw [h, List.filter_eq_self.2]
      intro e he; simpa using hall e he

/-- Raw keys due at an extraction with maximum key `m`: states with index in `[0, m]`, and landmarks filed as new under
keys `≤ m`. -/
def Due (m : Int) (newIds : OMap Int (List Int)) (raw : Key) : Prop :=
  (∃ c ∈ [Fam.B, .X, .V, .P], InFam c 0 m raw) ∨
    ∃ id ∈ idsWhere newIds (fun k => decide (k ≤ m)), sym .S id = .ok raw

/-- What a successful `extract_new_values` did. -/
theorem extractNewValues_ok {er : EndRead} {m : Int} {s s' : GM Val D} {ext : OMap Key Val} (hv : VInv s)
    (hl : s.newLandmarkIds.Sorted) (h : extractNewValues er m s = (.ok ext, s')) :
    0 ≤ m ∧ ext.Sorted ∧ (∀ raw, Due m s.newLandmarkIds raw → ext.find raw = s.newValues.find raw) ∧
    (∀ raw, ¬ Due m s.newLandmarkIds raw → ext.find raw = none) ∧
    (∀ id ∈ idsWhere s.newLandmarkIds (fun k => decide (k ≤ m)),
      ∃ raw, sym .S id = .ok raw ∧ s.newValues.contains raw = true) ∧
    (idsWhere s.newLandmarkIds (fun k => decide (k ≤ m))).Nodup ∧
    s' = { s with
      newLandmarkIds := s.newLandmarkIds.filter (fun e => decide (m < e.1))
      newValues := ext.foldl (fun n e => n.erase e.1) s.newValues } := by
  unfold extractNewValues at h
  by_cases hm : 0 ≤ m ∧ m < 2 ^ 56
  · rcases addFamilies_any er hv.newValues hv.newValues_length (first := 0) (last := m)
      (by omega) (by omega) hm.1 hm.2 [.B, .X, .V, .P] (by decide) [] OMap.sorted_nil (by simp) with
      ⟨_, f1⟩ | ⟨acc, f1, f2, f3⟩
    · rw [f1] at h; simp at h
    · rw [f1] at h
      dsimp only at h
      rcases hloop : extractLandmarkLoop s.newValues m s.newLandmarkIds acc with ⟨o, rest⟩
      rw [hloop] at h
      cases o with
      | throws => simp at h
      | ub => simp at h
      | ok ext' =>
        simp only [Prod.mk.injEq, Outcome.ok.injEq] at h
        obtain ⟨rfl, rfl⟩ := h
        obtain ⟨g1, g2⟩ := extractLandmarkLoop_ok _ hl _ _ _ hloop
        obtain ⟨k1, k2, k3, k4⟩ := insertLandmarks_ok _ _ _ f2 g1
        refine ⟨hm.1, k1, ?_, ?_, ?_, k3, ?_⟩
        · intro raw hdue
          by_cases hin : ∃ id ∈ idsWhere s.newLandmarkIds (fun k => decide (k ≤ m)), sym .S id = .ok raw
          · exact (k4 raw).1 hin
          · rw [(k4 raw).2 hin]
            rcases hdue with hfam | hin'
            · exact (f3 raw).1 hfam
            · exact absurd hin' hin
        · intro raw hdue
          rw [(k4 raw).2 (fun h => hdue (Or.inr h)), (f3 raw).2 (fun h => hdue (Or.inl h))]
          rfl
        · intro id hid
          obtain ⟨raw, r1, r2, _⟩ := k2 id hid
          exact ⟨raw, r1, r2⟩
        · rw [g2]
  · rw [addFamilies_throws er _ hm (by omega)] at h
    simp at h

/-- When the due landmarks are distinct and waiting, the extraction succeeds (libstdc++ reading). -/
theorem extractNewValues_succeeds {m : Int} {s : GM Val D} (hv : VInv s) (hl : s.newLandmarkIds.Sorted)
    (hm : 0 ≤ m ∧ m < 2 ^ 56) (hnd : (idsWhere s.newLandmarkIds (fun k => decide (k ≤ m))).Nodup)
    (hw : ∀ id ∈ idsWhere s.newLandmarkIds (fun k => decide (k ≤ m)),
      ∃ raw, sym .S id = .ok raw ∧ s.newValues.contains raw = true) :
    ∃ ext, (extractNewValues .nodeCount m s).1 = .ok ext := by
  unfold extractNewValues
  rcases addFamilies_any .nodeCount hv.newValues hv.newValues_length (first := 0) (last := m)
    (by omega) (by omega) hm.1 hm.2 [.B, .X, .V, .P] (by decide) [] OMap.sorted_nil (by simp) with
    ⟨f1, _⟩ | ⟨acc, f1, f2, f3⟩
  · simp at f1
  · rw [f1]
    dsimp only
    obtain ⟨acc', h'⟩ := insertLandmarks_succeeds (vals := s.newValues)
      (idsWhere s.newLandmarkIds (fun k => decide (k ≤ m))) acc f2 hnd (by
        intro id hid
        obtain ⟨raw, r1, r2⟩ := hw id hid
        refine ⟨raw, r1, r2, ?_⟩
        unfold OMap.contains
        rw [(f3 raw).2]
        · rfl
        · rintro ⟨c, hc, j, _, _, hj⟩
          have := (sym_inj r1 hj).1
          subst this
          simp at hc)
    rw [extractLandmarkLoop_of_insert _ hl _ _ h']
    exact ⟨acc', rfl⟩

/-! ### Landmark ids always have a value -/

/-- Invariant on the landmark id lists. -/
structure LInv (s : GM Val D) : Prop where
  ids : s.landmarkIds.Sorted
  newIds : s.newLandmarkIds.Sorted
  valued : ∀ k l id, s.landmarkIds.find k = some l → id ∈ l → ∃ raw, sym .S id = .ok raw ∧ s.values.contains raw = true
  sub : ∀ k l id, s.newLandmarkIds.find k = some l → id ∈ l → ∃ l', s.landmarkIds.find k = some l' ∧ id ∈ l'

theorem extractLandmarkLoop_suffix {vals : OMap Key Val} {mk : Int} (m : OMap Int (List Int)) (acc : OMap Key Val) :
    List.Sublist (extractLandmarkLoop vals mk m acc).2 m := by
  induction m generalizing acc with
  | nil => exact List.Sublist.refl _
  | cons e m ih =>
    obtain ⟨k, ids⟩ := e
    simp only [extractLandmarkLoop]
    split
    · split
      · exact (ih _).cons _
      · exact List.Sublist.refl _
      · exact List.Sublist.refl _
    · exact List.Sublist.refl _

theorem extractNewValues_newIds (er : EndRead) (m : Int) (s : GM Val D) :
    List.Sublist (extractNewValues er m s).2.newLandmarkIds s.newLandmarkIds := by
  unfold extractNewValues
  split
  · exact List.Sublist.refl _
  · exact List.Sublist.refl _
  · rename_i acc _
    have := extractLandmarkLoop_suffix (vals := s.newValues) (mk := m) s.newLandmarkIds acc
    dsimp only
    split <;> exact this

theorem find_of_sublist {κ ν : Type} [LinearOrder κ] {m m' : OMap κ ν} (hs : m.Sorted) (h : List.Sublist m' m) {k : κ}
    {v : ν} (hf : m'.find k = some v) : m.find k = some v :=
  OMap.find_of_mem hs (h.subset (OMap.mem_of_find hf))

theorem linv_values {s s' : GM Val D} (h : LInv s) (h1 : s'.landmarkIds = s.landmarkIds)
    (h2 : s'.newLandmarkIds = s.newLandmarkIds)
    (h3 : ∀ raw, s.values.contains raw = true → s'.values.contains raw = true) : LInv s' := by
  refine ⟨by rw [h1]; exact h.ids, by rw [h2]; exact h.newIds, ?_, by rw [h1, h2]; exact h.sub⟩
  rw [h1]
  intro k l id hk hid
  obtain ⟨raw, r1, r2⟩ := h.valued k l id hk hid
  exact ⟨raw, r1, h3 _ r2⟩

theorem contains_assign_mono {κ ν : Type} [LinearOrder κ] {m : OMap κ ν} (h : m.Sorted) (k k' : κ) (v : ν)
    (hc : m.contains k' = true) : (m.assign k v).contains k' = true := by
  rw [contains_assign h, hc]; simp

theorem keeps_linv_set (c : Fam) (k : Int) (v : Val) :
    Keeps (fun s : GM Val D => VInv s ∧ LInv s) (set c k v) := by
  rintro s ⟨h1, h2⟩
  refine ⟨keeps_vinv_set _ _ _ _ h1, ?_⟩
  cases hk : sym c k with
  | ok raw =>
    rw [set_ok h1 hk]
    exact linv_values h2 rfl rfl (fun r hr => contains_assign_mono h1.values _ _ _ hr)
  | throws => rw [set_throws s hk]; exact h2
  | ub => exact absurd hk (sym_ne_ub _ _)

theorem linv_frameState {s : GM Val D} (h : LInv s) (k : Int) (fs : OMap Int D) : LInv (frameState s k fs) :=
  linv_values h rfl rfl (fun _ h => h)

theorem linv_loopState {s : GM Val D} (h : LInv s) (k : Int) : LInv (loopState s k) := by
  refine ⟨OMap.sorted_emplace h.ids _ _, OMap.sorted_emplace h.newIds _ _, ?_, ?_⟩
  · intro k' l id hk hid
    simp only [loopState] at hk ⊢
    rw [OMap.find_emplace h.ids] at hk
    split at hk
    · cases hf : s.landmarkIds.find k with
      | none => simp [hf] at hk; subst hk; simp at hid
      | some l' => simp [hf] at hk; subst hk; exact h.valued _ _ _ hf hid
    · exact h.valued _ _ _ hk hid
  · intro k' l id hk hid
    simp only [loopState] at hk ⊢
    rw [OMap.find_emplace h.newIds] at hk
    rw [OMap.find_emplace h.ids]
    split at hk
    · rename_i e
      rw [if_pos e]
      cases hf : s.newLandmarkIds.find k with
      | none => simp [hf] at hk; subst hk; simp at hid
      | some l' =>
        simp [hf] at hk; subst hk
        obtain ⟨l2, e1, e2⟩ := h.sub _ _ _ hf hid
        exact ⟨l2, by simp [e1], e2⟩
    · rename_i e
      rw [if_neg e]
      exact h.sub _ _ _ hk hid

theorem linv_featState {s : GM Val D} (hv : VInv s) (h : LInv s) {k id : Int} {first : Bool} {xp xk l : Key}
    {p o : D} {v : Val} (hl : sym .S id = .ok l) : LInv (featState s k id first xp xk l p o v) := by
  cases first with
  | false =>
    exact linv_values h rfl rfl (fun r hr => contains_assign_mono hv.values _ _ _ hr)
  | true =>
    have ev : (featState s k id true xp xk l p o v).values = s.values.assign l v := rfl
    have ei : (featState s k id true xp xk l p o v).landmarkIds =
      s.landmarkIds.alter k (fun o => o.getD [] ++ [id]) := rfl
    have en : (featState s k id true xp xk l p o v).newLandmarkIds =
      s.newLandmarkIds.alter k (fun o => o.getD [] ++ [id]) := rfl
    refine ⟨by rw [ei]; exact OMap.sorted_alter h.ids _ _, by rw [en]; exact OMap.sorted_alter h.newIds _ _, ?_, ?_⟩
    · rw [ev, ei]
      intro k' l' id' hk hid
      rw [OMap.find_alter h.ids] at hk
      split at hk
      · simp at hk
        subst hk
        rw [List.mem_append] at hid
        rcases hid with hid | hid
        · cases hf : s.landmarkIds.find k with
          | none => simp [hf] at hid
          | some l2 =>
            rw [hf] at hid
            obtain ⟨raw, r1, r2⟩ := h.valued _ _ _ hf hid
            exact ⟨raw, r1, contains_assign_mono hv.values _ _ _ r2⟩
        · simp at hid
          subst hid
          exact ⟨l, hl, by rw [contains_assign hv.values]; simp⟩
      · obtain ⟨raw, r1, r2⟩ := h.valued _ _ _ hk hid
        exact ⟨raw, r1, contains_assign_mono hv.values _ _ _ r2⟩
    · rw [ei, en]
      intro k' l' id' hk hid
      rw [OMap.find_alter h.newIds] at hk
      rw [OMap.find_alter h.ids]
      split at hk
      · rename_i e
        rw [if_pos e]
        simp at hk
        subst hk
        refine ⟨_, rfl, ?_⟩
        rw [List.mem_append] at hid ⊢
        rcases hid with hid | hid
        · left
          cases hf : s.newLandmarkIds.find k with
          | none => simp [hf] at hid
          | some l2 =>
            rw [hf] at hid
            obtain ⟨l3, e1, e2⟩ := h.sub _ _ _ hf hid
            rw [e1]; exact e2
        · right; exact hid
      · rename_i e
        rw [if_neg e]
        exact h.sub _ _ _ hk hid

theorem linv_createStereo {s : GM Val D} (hv : VInv s) (h : LInv s) (k : Int) (fs : OMap Int D)
    (hub : (createStereo k fs s).1 ≠ .ub) : LInv (createStereo k fs s).2 := by
  rcases createStereo_cases k fs s with ⟨_, e⟩ | ⟨_, _, e⟩ | ⟨_, e⟩ |
    ⟨xk, p, c1, c2, cur, prev, older, _, _, hxk, _, _, e⟩
  · rw [e]; exact h
  · rw [e]; exact linv_frameState h _ _
  · rw [e]; exact linv_frameState h _ _
  · rw [e] at hub ⊢
    refine (stereoLoop_induct (Q := LInv) hxk p prev _ ?_ cur _ ?_ ?_ hub).1
    · intro s id po obs xp l bp hv h _ _ hl _
      exact linv_featState hv h hl
    · exact ⟨hv.values, hv.newValues, hv.coherent, hv.symbols⟩
    · exact linv_loopState (linv_frameState h _ _) _

theorem step_not_ub {er : EndRead} {k : Int} {fs : OMap Int D} {s s' : GM Val D} {r : Resp Val D}
    (h : step er (.stereo k fs) s = some (r, s')) : (createStereo k fs s).1 ≠ .ub := by
  intro hu
  simp only [step] at h
  rcases hr : createStereo k fs s with ⟨o, s1⟩
  rw [hr] at hu h
  dsimp only at hu
  subst hu
  simp [respOf] at h

theorem step_linv {er : EndRead} {op : Op Val D} {s s' : GM Val D} {r : Resp Val D}
    (h : step er op s = some (r, s')) (hv : VInv s) (hl : LInv s) : LInv s' := by
  have hstereo : ∀ k fs, op = .stereo k fs → (createStereo k fs s).1 ≠ .ub := by
    intro k fs e; subst e; exact step_not_ub h
  rw [step_state h]
  cases op with
  | setNamedKey n k p =>
    simp only [stateAfter, setNamedKey, modify_run]
    split <;> exact linv_values hl rfl rfl (fun _ h => h)
  | increment n =>
    simp only [stateAfter, increment]
    split <;> exact linv_values hl rfl rfl (fun _ h => h)
  | setPose k v => exact (keeps_linv_set _ _ _ _ ⟨hv, hl⟩).2
  | setVelocity k v => exact (keeps_linv_set _ _ _ _ ⟨hv, hl⟩).2
  | setImuBias k v => exact (keeps_linv_set _ _ _ _ ⟨hv, hl⟩).2
  | setBarometerBias k v => exact (keeps_linv_set _ _ _ _ ⟨hv, hl⟩).2
  | setNavstate k p v =>
    exact (Keeps.bind (m := set .X k p) (keeps_linv_set _ _ _) (fun _ => keeps_linv_set _ _ _) _ ⟨hv, hl⟩).2
  | setTimestamp k t => exact linv_values hl rfl rfl (fun _ h => h)
  | create kind k d =>
    exact keeps_createFactor (P := LInv) (fun _ _ _ h => linv_values h rfl rfl (fun _ h => h)) _ _ _ _ hl
  | stereo k fs => exact linv_createStereo hv hl k fs (hstereo k fs rfl)
  | setExtrinsic => exact linv_values hl rfl rfl (fun _ h => h)
  | setCalibration bp => exact linv_values hl rfl rfl (fun _ h => h)
  | updateFromValues vs =>
    refine (keeps_updateFromValues' (P := fun s : GM Val D => VInv s ∧ LInv s) ?_ vs s ⟨hv, hl⟩).2
    rintro raw v s ⟨h1, h2⟩
    refine ⟨keeps_vinv_update _ _ _ h1, ?_⟩
    rw [update_run]
    split
    · exact linv_values h2 rfl rfl (fun r hr => contains_assign_mono h1.values _ _ _ hr)
    · exact h2
  | extractFactors m => exact linv_values hl rfl rfl (fun _ h => h)
  | extractValues m =>
    obtain ⟨n, l, e⟩ := extractNewValues_frame er m s
    have hsub := extractNewValues_newIds er m s
    simp only [stateAfter]
    rw [e] at hsub ⊢
    refine ⟨hl.ids, List.Pairwise.sublist hsub hl.newIds, hl.valued, ?_⟩
    intro k l' id hk hid
    exact hl.sub k l' id (find_of_sublist hl.newIds hsub hk) hid
  | extractKeys m => exact linv_values hl rfl rfl (fun _ h => h)

theorem linv_init : LInv ({} : GM Val D) :=
  ⟨OMap.sorted_nil, OMap.sorted_nil, by simp, by simp⟩

theorem reaches_linv {er : EndRead} {log : Log Val D} {s : GM Val D} (h : Reaches er log s) : LInv s := by
  induction h with
  | init => exact linv_init
  | step hr hs ih => exact step_linv hs (reaches_vinv hr) ih

end Graph

end Serpent
