import Mathlib.Order.Defs.LinearOrder
import Mathlib.Order.Basic

/-!
# `std::map` as a sorted association list

`std::map<κ, ν>` keeps its entries in strictly increasing key order. The model is the list of entries in that order.
`Sorted` is a separate invariant, preserved by every operation.
-/

namespace Serpent

/-- Entries of a `std::map`, in iteration order (e.g. graph_manager.hpp:419-463). -/
abbrev OMap (κ ν : Type) := List (κ × ν)

namespace OMap

variable {κ ν : Type} [LinearOrder κ]

/-- Keys strictly increasing. -/
def Sorted (m : OMap κ ν) : Prop := m.Pairwise (fun a b => a.1 < b.1)

/-- `map.find(k)` / `map.at(k)` (`none` = `end()`). -/
def find : OMap κ ν → κ → Option ν
  | [], _ => none
  | (k', v) :: m, k => if k = k' then some v else find m k

/-- Apply `f` to the entry at `k`, creating the entry (in key order) when there is none. -/
def alter : OMap κ ν → κ → (Option ν → ν) → OMap κ ν
  | [], k, f => [(k, f none)]
  | (k', v) :: m, k, f =>
    if k < k' then (k, f none) :: (k', v) :: m
    else if k = k' then (k', f (some v)) :: m
    else (k', v) :: alter m k f

/-- `map.emplace(k, v)`: keeps an existing entry. -/
def emplace (m : OMap κ ν) (k : κ) (v : ν) : OMap κ ν := alter m k (fun o => o.getD v)

/-- `map[k] = v` / `insert_or_assign`. -/
def assign (m : OMap κ ν) (k : κ) (v : ν) : OMap κ ν := alter m k (fun _ => v)

/-- `map.erase(k)`. -/
def erase (m : OMap κ ν) (k : κ) : OMap κ ν := m.filter (fun e => decide (e.1 ≠ k))

/-- The entry exists. -/
def contains (m : OMap κ ν) (k : κ) : Bool := (find m k).isSome

/-! ### Lemmas -/

@[simp] theorem find_nil (k : κ) : find ([] : OMap κ ν) k = none := rfl

theorem find_cons (e : κ × ν) (m : OMap κ ν) (k : κ) :
    find (e :: m) k = if k = e.1 then some e.2 else find m k := rfl

@[simp] theorem sorted_nil : Sorted ([] : OMap κ ν) := List.Pairwise.nil

theorem sorted_cons {e : κ × ν} {m : OMap κ ν} :
    Sorted (e :: m) ↔ (∀ x ∈ m, e.1 < x.1) ∧ Sorted m := List.pairwise_cons

theorem Sorted.tail {e : κ × ν} {m : OMap κ ν} (h : Sorted (e :: m)) : Sorted m := (sorted_cons.1 h).2

theorem mem_alter_key {m : OMap κ ν} {k : κ} {f : Option ν → ν} {e : κ × ν} (h : e ∈ alter m k f) :
    e.1 = k ∨ e ∈ m := by
  induction m with
  | nil => simp [alter] at h; left; rw [h]
  | cons a m ih =>
    obtain ⟨k', v⟩ := a
    simp only [alter] at h
    split at h
    · rcases List.mem_cons.1 h with h | h
      · left; rw [h]
      · right; exact h
    · split at h
      · rename_i hk
        rcases List.mem_cons.1 h with h | h
        · left; rw [h, hk]
        · right; exact List.mem_cons_of_mem _ h
      · rcases List.mem_cons.1 h with h | h
        · right; rw [h]; exact List.mem_cons_self
        · rcases ih h with h | h
          · left; exact h
          · right; exact List.mem_cons_of_mem _ h

theorem sorted_alter {m : OMap κ ν} (h : Sorted m) (k : κ) (f : Option ν → ν) : Sorted (alter m k f) := by
  induction m with
  | nil => simp [alter, Sorted]
  | cons a m ih =>
    obtain ⟨k', v⟩ := a
    have h' := sorted_cons.1 h
    simp only [alter]
    split
    · rename_i hlt
      refine sorted_cons.2 ⟨?_, h⟩
      intro x hx
      rcases List.mem_cons.1 hx with rfl | hx
      · exact hlt
      · exact lt_trans hlt (h'.1 x hx)
    · split
      · exact sorted_cons.2 ⟨h'.1, h'.2⟩
      · rename_i h1 h2
        refine sorted_cons.2 ⟨?_, ih h'.2⟩
        intro x hx
        rcases mem_alter_key hx with hx | hx
        · show k' < x.1
          rw [hx]
          exact lt_of_le_of_ne (not_lt.1 h1) (Ne.symm h2)
        · exact h'.1 x hx

theorem find_eq_none_of_lt {m : OMap κ ν} {k : κ} (h : ∀ x ∈ m, k < x.1) : find m k = none := by
  induction m with
  | nil => rfl
  | cons a m ih =>
    rw [find_cons, if_neg (ne_of_lt (h a List.mem_cons_self)), ih (fun x hx => h x (List.mem_cons_of_mem _ hx))]

theorem find_alter {m : OMap κ ν} (h : Sorted m) (k k' : κ) (f : Option ν → ν) :
    find (alter m k f) k' = if k' = k then some (f (find m k)) else find m k' := by
  induction m with
  | nil => simp [alter, find_cons]
  | cons a m ih =>
    obtain ⟨k0, v⟩ := a
    have h' := sorted_cons.1 h
    simp only [alter]
    split
    · rename_i hlt
      have : find ((k0, v) :: m) k = none := by
        apply find_eq_none_of_lt
        intro x hx
        rcases List.mem_cons.1 hx with rfl | hx
        · exact hlt
        · exact lt_trans hlt (h'.1 x hx)
      rw [this, find_cons]
    · rename_i hlt
      split
      · rename_i heq
        subst heq
        simp only [find_cons]
        by_cases hk : k' = k <;> simp [hk]
      · rename_i hne
        simp only [find_cons]
        rw [ih h'.2]
        by_cases hk : k' = k0
        · subst hk
          simp [Ne.symm hne]
        · simp only [if_neg hk, if_neg hne]

theorem sorted_emplace {m : OMap κ ν} (h : Sorted m) (k : κ) (v : ν) : Sorted (emplace m k v) := sorted_alter h _ _
theorem sorted_assign {m : OMap κ ν} (h : Sorted m) (k : κ) (v : ν) : Sorted (assign m k v) := sorted_alter h _ _

theorem sorted_filter {m : OMap κ ν} (h : Sorted m) (p : κ × ν → Bool) : Sorted (m.filter p) :=
  List.Pairwise.filter p h

theorem sorted_erase {m : OMap κ ν} (h : Sorted m) (k : κ) : Sorted (erase m k) := sorted_filter h _

theorem find_emplace {m : OMap κ ν} (h : Sorted m) (k k' : κ) (v : ν) :
    find (emplace m k v) k' = if k' = k then some ((find m k).getD v) else find m k' := find_alter h _ _ _

theorem find_assign {m : OMap κ ν} (h : Sorted m) (k k' : κ) (v : ν) :
    find (assign m k v) k' = if k' = k then some v else find m k' := find_alter h _ _ _

theorem find_filter_key (m : OMap κ ν) (p : κ → Bool) (k : κ) :
    find (m.filter (fun e => p e.1)) k = if p k then find m k else none := by
  induction m with
  | nil => simp
  | cons a m ih =>
    rw [List.filter_cons]
    split
    · rename_i hp
      simp only [find_cons, ih]
      by_cases hk : k = a.1
      · subst hk; simp [hp]
      · simp [hk]
    · rename_i hp
      rw [ih, find_cons]
      by_cases hk : k = a.1
      · subst hk; simp [hp]
      · simp [hk]

theorem find_erase (m : OMap κ ν) (k k' : κ) :
    find (erase m k) k' = if k' = k then none else find m k' := by
  unfold erase
  rw [find_filter_key m (fun x => decide (x ≠ k)) k']
  by_cases h : k' = k <;> simp [h]

theorem mem_of_find {m : OMap κ ν} {k : κ} {v : ν} (h : find m k = some v) : (k, v) ∈ m := by
  induction m with
  | nil => simp at h
  | cons a m ih =>
    rw [find_cons] at h
    split at h
    · rename_i hk
      obtain ⟨a1, a2⟩ := a
      simp only [Option.some.injEq] at h
      simp only at hk
      subst hk; subst h
      exact List.mem_cons_self
    · exact List.mem_cons_of_mem _ (ih h)

theorem find_of_mem {m : OMap κ ν} (hs : Sorted m) {e : κ × ν} (h : e ∈ m) : find m e.1 = some e.2 := by
  induction m with
  | nil => simp at h
  | cons a m ih =>
    rcases List.mem_cons.1 h with rfl | h
    · simp [find_cons]
    · have := (sorted_cons.1 hs).1 e h
      rw [find_cons, if_neg (ne_of_gt this), ih hs.tail h]

theorem mem_iff_find {m : OMap κ ν} (hs : Sorted m) {k : κ} {v : ν} : (k, v) ∈ m ↔ find m k = some v :=
  ⟨fun h => find_of_mem hs h, mem_of_find⟩

theorem find_isSome_iff {m : OMap κ ν} {k : κ} : (find m k).isSome ↔ ∃ v, (k, v) ∈ m := by
  constructor
  · intro h
    obtain ⟨v, hv⟩ := Option.isSome_iff_exists.1 h
    exact ⟨v, mem_of_find hv⟩
  · rintro ⟨v, hv⟩
    induction m with
    | nil => simp at hv
    | cons a m ih =>
      rw [find_cons]
      split
      · rfl
      · rename_i hk
        rcases List.mem_cons.1 hv with rfl | hv
        · exact absurd rfl hk
        · exact ih hv

theorem find_none_iff {m : OMap κ ν} {k : κ} : find m k = none ↔ ∀ e ∈ m, e.1 ≠ k := by
  constructor
  · intro h e he hk
    have : (find m k).isSome := find_isSome_iff.2 ⟨e.2, by rw [← hk]; exact he⟩
    rw [h] at this; simp at this
  · intro h
    cases hf : find m k with
    | none => rfl
    | some v => exact absurd rfl (h _ (mem_of_find hf))

/-- Two sorted maps with the same lookups are equal. -/
theorem ext_find {m m' : OMap κ ν} (h : Sorted m) (h' : Sorted m') (hf : ∀ k, find m k = find m' k) : m = m' := by
  induction m generalizing m' with
  | nil =>
    cases m' with
    | nil => rfl
    | cons a m' => have := hf a.1; simp [find_cons] at this
  | cons a m ih =>
    cases m' with
    | nil => have := hf a.1; simp [find_cons] at this
    | cons b m' =>
      have ha := sorted_cons.1 h
      have hb := sorted_cons.1 h'
      have hab : a = b := by
        have h1 := find_of_mem h (List.mem_cons_self : a ∈ a :: m)
        have h2 := find_of_mem h' (List.mem_cons_self : b ∈ b :: m')
        rw [hf] at h1
        rw [← hf] at h2
        have m1 := mem_of_find h1
        have m2 := mem_of_find h2
        rcases List.mem_cons.1 m1 with e1 | e1
        · exact e1
        · rcases List.mem_cons.1 m2 with e2 | e2
          · exact e2.symm
          · exact absurd (lt_trans (hb.1 _ e1) (ha.1 _ e2)) (lt_irrefl _)
      subst hab
      congr 1
      apply ih ha.2 hb.2
      intro k
      have hk := hf k
      simp only [find_cons] at hk
      by_cases hka : k = a.1
      · subst hka
        rw [find_eq_none_of_lt ha.1, find_eq_none_of_lt hb.1]
      · simpa [hka] using hk

end OMap

end Serpent
