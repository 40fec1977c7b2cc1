import Verif.Spec.Stereo
import Verif.Lemmas.Arrays
import Mathlib.Data.List.Pairwise
import Mathlib.Algebra.BigOperators.Ring.Finset

/-!
# Lemmas about the stereo model: loops, indices, windows
-/

namespace Serpent

namespace Stereo

open EigenRos (forLoop getAt forLoop_inv forLoop_succ getAt_ok)

variable {α : Type}

/-- A loop that appends the elements that pass a test and their positions. -/
theorem filter_kept (xs : List α) (P : α → Prop) (body : Nat → List α × List Nat → Outcome (List α × List Nat))
    (hyes : ∀ i x s, xs[i]? = some x → P x → body i s = .ok (s.1 ++ [x], s.2 ++ [i]))
    (hno : ∀ i x s, xs[i]? = some x → ¬ P x → body i s = .ok s) :
    ∃ out idx, forLoop xs.length body ([], []) = .ok (out, idx) ∧ Kept P xs out idx := by
  obtain ⟨s, hs, h1, h2, h3⟩ := forLoop_inv (σ := List α × List Nat)
    (fun n s => s.2.Pairwise (· < ·) ∧ (∀ i, i ∈ s.2 ↔ i < n ∧ ∃ x, xs[i]? = some x ∧ P x) ∧
      s.1.map some = s.2.map (fun i => xs[i]?)) (n := xs.length) (body := body) (s := ([], []))
    ⟨by simp, by simp, by simp⟩ (by
      intro i s hi ⟨h1, h2, h3⟩
      have hx : xs[i]? = some xs[i] := by simp [hi]
      by_cases hP : P xs[i]
      · refine ⟨_, hyes i _ s hx hP, ?_, ?_, ?_⟩
        · rw [List.pairwise_append]
          refine ⟨h1, by simp, ?_⟩
          intro a ha b hb
          have := ((h2 a).1 ha).1
          simp only [List.mem_singleton] at hb
          omega
        · intro k
          rw [List.mem_append, h2, List.mem_singleton]
          constructor
          · rintro (⟨h, e⟩ | rfl)
            · exact ⟨by omega, e⟩
            · exact ⟨by omega, _, hx, hP⟩
          · rintro ⟨h, e⟩
            rcases Nat.lt_succ_iff_lt_or_eq.1 h with h | h
            · exact Or.inl ⟨h, e⟩
            · exact Or.inr h
        · rw [List.map_append, List.map_append, h3]
          simp [hx]
      · refine ⟨s, hno i _ s hx hP, h1, ?_, h3⟩
        intro k
        rw [h2]
        constructor
        · rintro ⟨h, e⟩; exact ⟨by omega, e⟩
        · rintro ⟨h, x, e, hp⟩
          rcases Nat.lt_succ_iff_lt_or_eq.1 h with h | rfl
          · exact ⟨h, x, e, hp⟩
          · rw [hx] at e; cases e; exact absurd hp hP)
  refine ⟨s.1, s.2, hs, h1, ?_, h3⟩
  intro i
  rw [h2]
  constructor
  · exact fun h => h.2
  · rintro ⟨x, e, hp⟩
    exact ⟨(List.getElem?_eq_some_iff.1 e).1, x, e, hp⟩

/-- A loop that throws at some position and is never undefined throws. -/
theorem forLoop_throws {σ : Type} {n : Nat} {body : Nat → σ → Outcome σ} (s : σ) (hub : ∀ i s, i < n → body i s ≠ .ub)
    (ht : ∃ i, i < n ∧ ∀ s, body i s = .throws) : forLoop n body s = .throws := by
  induction n with
  | zero => obtain ⟨i, hi, -⟩ := ht; omega
  | succ n ih =>
    rw [forLoop_succ]
    obtain ⟨i, hi, h⟩ := ht
    by_cases hin : i < n
    · rw [ih (fun i s hi => hub i s (by omega)) ⟨i, hin, h⟩]; rfl
    · have : i = n := by omega
      subst this
      cases hr : forLoop i body s with
      | ok t => rw [Outcome.bind_ok, h]
      | throws => rfl
      | ub =>
        exfalso
        have : ∀ m, m ≤ i → forLoop m body s ≠ .ub := by
          intro m hm
          induction m with
          | zero => simp [forLoop]
          | succ m ihm =>
            rw [forLoop_succ]
            cases hr : forLoop m body s with
            | ok t => rw [Outcome.bind_ok]; exact hub m t (by omega)
            | throws => simp
            | ub => exact absurd hr (ihm (by omega))
        exact this i le_rfl hr

/-- An invariant of a loop that ends. -/
theorem forLoop_ok_inv {σ : Type} (P : Nat → σ → Prop) {n : Nat} {body : Nat → σ → Outcome σ} {s s' : σ} (h0 : P 0 s)
    (hs : ∀ i s t, i < n → P i s → body i s = .ok t → P (i + 1) t) (h : forLoop n body s = .ok s') : P n s' := by
  induction n generalizing s' with
  | zero => cases h; exact h0
  | succ n ih =>
    rw [forLoop_succ] at h
    cases hr : forLoop n body s with
    | ok t =>
      rw [hr, Outcome.bind_ok] at h
      exact hs n t s' (by omega) (ih (fun i s t hi => hs i s t (by omega)) hr) h
    | throws => rw [hr] at h; cases h
    | ub => rw [hr] at h; cases h

theorem atInt_ok {l : List α} {i : Int} {x : α} (h : At l i x) : atInt l i = .ok x := by
  unfold atInt
  rw [if_neg (by have := h.1; omega), h.2]

theorem atInt_throws {l : List α} {i : Int} (h : ¬ ∃ x, At l i x) : atInt l i = .throws := by
  unfold atInt
  split
  · rfl
  · cases e : l[i.toNat]? with
    | none => rfl
    | some x => exact absurd ⟨x, by omega, e⟩ h

theorem atInt_cases (l : List α) (i : Int) : (∃ x, At l i x ∧ atInt l i = .ok x) ∨ atInt l i = .throws := by
  by_cases h : ∃ x, At l i x
  · obtain ⟨x, hx⟩ := h
    exact Or.inl ⟨x, hx, atInt_ok hx⟩
  · exact Or.inr (atInt_throws h)

theorem At.unique {l : List α} {i : Int} {x y : α} (h : At l i x) (h' : At l i y) : x = y := by
  have := h.2.symm.trans h'.2
  simpa using this

theorem indexInt_ok {l : List α} {i : Int} {x : α} (h : At l i x) : indexInt l i = .ok x := by
  unfold indexInt
  rw [if_neg (by have := h.1; omega), h.2]

/-! ### Windows -/

variable {K : Type} [Field K] [LinearOrder K]

omit [LinearOrder K] in
theorem overWindow_ok (w : Size) (term : Int → Int → Outcome K) (f : Nat → Nat → K) (a : K)
    (h : ∀ r c : Nat, (r : Int) < w.height → (c : Int) < w.width → term r c = .ok (f r c)) :
    overWindow w term a = .ok (a + total w f) := by
  obtain ⟨s, hs, e⟩ := forLoop_inv (σ := K)
    (fun n s => s = a + ∑ r ∈ Finset.range n, ∑ c ∈ Finset.range w.width.toNat, f r c)
    (n := w.height.toNat)
    (body := fun row s => forLoop w.width.toNat (fun col s => term row col >>= fun x => .ok (s + x)) s) (s := a)
    (by simp) (by
      intro i s hi hs
      obtain ⟨t, ht, e⟩ := forLoop_inv (σ := K) (fun n t => t = s + ∑ c ∈ Finset.range n, f i c)
        (n := w.width.toNat) (body := fun col s => term i col >>= fun x => .ok (s + x)) (s := s) (by simp) (by
          intro j t hj ht
          refine ⟨t + f i j, ?_, ?_⟩
          · rw [h i j (by omega) (by omega)]; rfl
          · rw [ht, Finset.sum_range_succ, add_assoc])
      refine ⟨t, ht, ?_⟩
      rw [e, hs, Finset.sum_range_succ, add_assoc])
  unfold overWindow
  rw [hs, e]
  rfl

omit [LinearOrder K] in
theorem image_at {i : Image} {tl : Point} {w : Size} (h : Inside i tl w) {r c : Nat} (hr : (r : Int) < w.height)
    (hc : (c : Int) < w.width) : (i.at (tl.y + r) (tl.x + c) : Outcome K) = .ok (val i tl r c) := by
  unfold Image.at
  obtain ⟨h1, h2, h3, h4⟩ := h
  rw [if_pos ⟨by omega, by omega, by omega, by omega⟩]
  rfl

theorem within_iff {i : Image} {tl : Point} {w : Size} : windowWithinImage i tl w = true ↔ Inside i tl w := by
  unfold windowWithinImage Inside
  simp

end Stereo

end Serpent
