import Verif.Spec.Synchroniser
import Mathlib.Data.List.Induction
import Mathlib.Tactic.Push
import Mathlib.Tactic.Tauto
import Mathlib.Data.Fintype.Lattice
import Mathlib.Data.Fintype.EquivFin
import Mathlib.Order.Monotone.Basic
import Mathlib.Data.List.Sort

/-!
# Helper lemmas: the synchronisers and the subscription queues
-/

namespace Serpent

namespace Sync

variable {n : Nat} {M : Type}

theorem after_snoc (size : Nat) (h : List (Arrival n M)) (a : Arrival n M) :
    after size (h ++ [a]) = receive size (after size h) a := by
  unfold after; rw [List.foldl_append]; rfl

theorem complete_some {f : Fin n → Option M} {g : Fin n → M} : complete f = some g ↔ ∀ i, f i = some (g i) := by
  unfold complete
  constructor
  · intro h
    split at h
    · rename_i hs
      cases h
      intro i
      exact (Option.some_get (hs i)).symm
    · cases h
  · intro h
    rw [dif_pos (fun i => by rw [h i]; rfl)]
    congr 1
    funext i
    simp [h i]

theorem complete_none {f : Fin n → Option M} : complete f = none ↔ ∃ i, f i = none := by
  unfold complete
  split
  · rename_i hs
    simp only [reduceCtorEq, false_iff, not_exists]
    intro i hi
    have := hs i
    rw [hi] at this
    cases this
  · rename_i hs
    push Not at hs
    obtain ⟨i, hi⟩ := hs
    refine ⟨fun _ => ⟨i, by simpa using hi⟩, fun _ => rfl⟩

theorem mem_trim {size : Nat} {p : OMap Int (Fin n → Option M)} {e : Int × (Fin n → Option M)} (h : e ∈ trim size p) : e ∈ p := by
  unfold trim at h
  split at h
  · exact h
  · exact List.mem_of_mem_drop h

theorem sorted_trim {size : Nat} {p : OMap Int (Fin n → Option M)} (h : p.Sorted) : (trim size p).Sorted := by
  unfold trim
  split
  · exact h
  · exact List.Pairwise.sublist (List.drop_sublist _ _) h

theorem trim_eq {size : Nat} {p : OMap Int (Fin n → Option M)} (h : p.length ≤ size) : trim size p = p := by
  unfold trim
  split
  · rfl
  · rw [Nat.sub_eq_zero_of_le h]; rfl

theorem trim_length {size : Nat} (p : OMap Int (Fin n → Option M)) (h : size ≠ 0) : (trim size p).length ≤ size := by
  unfold trim
  rw [if_neg h, List.length_drop]
  omega

/-- Everything in the synchroniser came in. -/
structure Sound (h : List (Arrival n M)) (s : State n M) : Prop where
  sorted : s.pending.Sorted
  pending : ∀ e ∈ s.pending, ∀ i m, e.2 i = some m → (⟨i, e.1, m⟩ : Arrival n M) ∈ h
  calls : ∀ c ∈ s.calls, ∀ i, (⟨i, c.1, c.2 i⟩ : Arrival n M) ∈ h

theorem update_sound {h : List (Arrival n M)} {s : State n M} (hs : Sound h s) (a : Arrival n M) (i : Fin n) (m : M)
    (hm : Function.update ((s.pending.find a.stamp).getD (fun _ => none)) a.input (some a.msg) i = some m) :
    (⟨i, a.stamp, m⟩ : Arrival n M) ∈ h ++ [a] := by
  by_cases hi : i = a.input
  · subst hi
    rw [Function.update_self] at hm
    cases hm
    exact List.mem_append_right _ (List.mem_singleton.2 rfl)
  · rw [Function.update_of_ne hi] at hm
    cases hf : s.pending.find a.stamp with
    | none => rw [hf] at hm; cases hm
    | some f =>
      rw [hf] at hm
      exact List.mem_append_left _ (hs.pending (a.stamp, f) (OMap.mem_of_find hf) i m hm)

theorem assign_sound {h : List (Arrival n M)} {s : State n M} (hs : Sound h s) (a : Arrival n M) {e : Int × (Fin n → Option M)}
    (he : e ∈ s.pending.assign a.stamp
      (Function.update ((s.pending.find a.stamp).getD (fun _ => none)) a.input (some a.msg)))
    {i : Fin n} {m : M} (hm : e.2 i = some m) : (⟨i, e.1, m⟩ : Arrival n M) ∈ h ++ [a] := by
  have hf := OMap.find_of_mem (OMap.sorted_assign hs.sorted _ _) he
  rw [OMap.find_assign hs.sorted] at hf
  split at hf
  · rename_i hk
    have hk' : e.1 = a.stamp := hk
    rw [hk']
    apply update_sound hs a i m
    have := Option.some.inj hf
    rw [this]
    exact hm
  · exact List.mem_append_left _ (hs.pending e (OMap.mem_of_find hf) i m hm)

theorem after_sound (size : Nat) (h : List (Arrival n M)) : Sound h (after size h) := by
  induction h using List.reverseRecOn with
  | nil => exact ⟨OMap.sorted_nil, fun e he => absurd he (List.not_mem_nil), fun e he => absurd he (List.not_mem_nil)⟩
  | append_singleton h a ih =>
    rw [after_snoc]
    unfold receive
    dsimp only
    split
    · rename_i g hg
      refine ⟨sorted_trim (OMap.sorted_filter (OMap.sorted_erase (OMap.sorted_assign ih.sorted _ _) _) _), ?_, ?_⟩
      · intro e he i m hm
        have he' := List.mem_of_mem_filter (List.mem_of_mem_filter (mem_trim he))
        exact assign_sound ih a he' hm
      · intro c hc i
        rcases List.mem_append.1 hc with hc | hc
        · exact List.mem_append_left _ (ih.calls c hc i)
        · rw [List.mem_singleton.1 hc]
          exact update_sound ih a i (g i) (complete_some.1 hg i)
    · refine ⟨sorted_trim (OMap.sorted_assign ih.sorted _ _), ?_, ?_⟩
      · intro e he i m hm
        exact assign_sound ih a (mem_trim he) hm
      · intro c hc i
        exact List.mem_append_left _ (ih.calls c hc i)

/-- A call made by the last message has its stamp. -/
theorem calls_snoc (size : Nat) (h : List (Arrival n M)) (a : Arrival n M) :
    (after size (h ++ [a])).calls = (after size h).calls ∨
      ∃ g, (after size (h ++ [a])).calls = (after size h).calls ++ [(a.stamp, g)] := by
  rw [after_snoc]
  unfold receive
  dsimp only
  split
  · rename_i g _
    exact .inr ⟨g, rfl⟩
  · exact .inl rfl

/-- Calls of a history, related pairwise, if every message is related to the earlier ones of its input. -/
theorem calls_pairwise (R : Int → Int → Prop) (size : Nat) (h : List (Arrival n M))
    (ho : h.Pairwise (fun a b => a.input = b.input → R a.stamp b.stamp)) :
    (after size h).calls.Pairwise (fun c d => R c.1 d.1) := by
  induction h using List.reverseRecOn with
  | nil => exact List.Pairwise.nil
  | append_singleton h a ih =>
    obtain ⟨h1, _, h2⟩ := List.pairwise_append.1 ho
    rcases calls_snoc size h a with he | ⟨g, he⟩
    · rw [he]; exact ih h1
    · rw [he]
      refine List.pairwise_append.2 ⟨ih h1, List.pairwise_singleton _ _, ?_⟩
      intro c hc d hd
      rw [List.mem_singleton.1 hd]
      exact h2 _ ((after_sound size h).calls c hc a.input) a (List.mem_singleton.2 rfl) rfl

/-- The synchroniser holds exactly the open stamps and has called exactly for the complete ones. -/
structure Exact (h : List (Arrival n M)) (s : State n M) : Prop where
  sorted : s.pending.Sorted
  isOpen : ∀ t f, s.pending.find t = some f → Open h t
  tuple : ∀ t f, s.pending.find t = some f → ∀ i m, f i = some m ↔ (⟨i, t, m⟩ : Arrival n M) ∈ h
  held : ∀ t, Open h t → s.pending.find t ≠ none
  calls : ∀ t g, (t, g) ∈ s.calls ↔ ∀ i, (⟨i, t, g i⟩ : Arrival n M) ∈ h

theorem allIn_lt {h : List (Arrival n M)} {a : Arrival n M} (ho : InOrder (h ++ [a])) {t : Int} (ht : AllIn h t) : t < a.stamp := by
  obtain ⟨_, _, h2⟩ := List.pairwise_append.1 ho
  obtain ⟨m, hm⟩ := ht a.input
  exact h2 _ hm a (List.mem_singleton.2 rfl) rfl

theorem mem_snoc_ne {h : List (Arrival n M)} {a : Arrival n M} {i : Fin n} {t : Int} {m : M} (hne : t ≠ a.stamp) :
    (⟨i, t, m⟩ : Arrival n M) ∈ h ++ [a] ↔ (⟨i, t, m⟩ : Arrival n M) ∈ h := by
  rw [List.mem_append, List.mem_singleton]
  constructor
  · rintro (hh | hh)
    · exact hh
    · subst hh; exact absurd rfl hne
  · exact .inl

theorem allIn_snoc_ne {h : List (Arrival n M)} {a : Arrival n M} {t : Int} (hne : t ≠ a.stamp) : AllIn (h ++ [a]) t ↔ AllIn h t := by
  unfold AllIn
  simp only [mem_snoc_ne hne]

theorem allIn_mono {h : List (Arrival n M)} {a : Arrival n M} {t : Int} (ht : AllIn h t) : AllIn (h ++ [a]) t :=
  fun i => (ht i).imp fun _ hm => List.mem_append_left _ hm

/-- The tuple of the stamp of the last message. -/
theorem update_exact {h : List (Arrival n M)} {s : State n M} (hs : Exact h s) {a : Arrival n M} (ho : InOrder (h ++ [a]))
    (i : Fin n) (m : M) :
    Function.update ((s.pending.find a.stamp).getD (fun _ => none)) a.input (some a.msg) i = some m ↔
      (⟨i, a.stamp, m⟩ : Arrival n M) ∈ h ++ [a] := by
  obtain ⟨_, _, h2⟩ := List.pairwise_append.1 ho
  rw [List.mem_append, List.mem_singleton]
  by_cases hi : i = a.input
  · subst hi
    rw [Function.update_self]
    constructor
    · intro hm
      cases hm
      exact .inr rfl
    · rintro (hm | hm)
      · exact absurd (h2 _ hm a (List.mem_singleton.2 rfl) rfl) (lt_irrefl _)
      · rw [← hm]
  · rw [Function.update_of_ne hi]
    have hne : ∀ m, (⟨i, a.stamp, m⟩ : Arrival n M) ≠ a := fun m he => hi (by rw [← he])
    cases hf : s.pending.find a.stamp with
    | none =>
      constructor
      · intro hm; cases hm
      · rintro (hm | hm)
        · exact absurd hf (hs.held _ ⟨⟨i, m, hm⟩, fun t' ht' hall => absurd (allIn_lt ho hall) (not_lt.2 ht')⟩)
        · exact absurd hm (hne m)
    | some f =>
      refine (hs.tuple _ f hf i m).trans ⟨.inl, ?_⟩
      rintro (hm | hm)
      · exact hm
      · exact absurd hm (hne m)

theorem length_le {size : Nat} {h : List (Arrival n M)} {p : OMap Int (Fin n → Option M)} (hp : p.Sorted)
    (ho : ∀ t f, p.find t = some f → Open h t)
    (hn : ∀ ts : List Int, ts.Nodup → (∀ t ∈ ts, Open h t) → ts.length ≤ size) : p.length ≤ size := by
  have := hn (p.map Prod.fst) ?_ ?_
  · rwa [List.length_map] at this
  · unfold List.Nodup
    rw [List.pairwise_map]
    exact hp.imp fun hlt => ne_of_lt hlt
  · intro t ht
    obtain ⟨e, he, rfl⟩ := List.mem_map.1 ht
    exact ho e.1 e.2 (OMap.find_of_mem hp he)

theorem after_exact (hn : 0 < n) (size : Nat) (h : List (Arrival n M)) (ho : InOrder h) (hv : size = 0 ∨ NeverOver size h) :
    Exact h (after size h) := by
  induction h using List.reverseRecOn with
  | nil =>
    refine ⟨OMap.sorted_nil, fun t f hf => (by cases hf), fun t f hf => (by cases hf), ?_, ?_⟩
    · rintro t ⟨⟨i, m, hm⟩, _⟩
      cases hm
    · intro t g
      exact ⟨fun hm => (by cases hm), fun hm => absurd (hm ⟨0, hn⟩) List.not_mem_nil⟩
  | append_singleton h a ih =>
    have ih := ih (List.pairwise_append.1 ho).1 (hv.imp id fun hv p hp => hv p (hp.trans (List.prefix_append _ _)))
    have hv' : ∀ p : OMap Int (Fin n → Option M), p.Sorted → (∀ t f, p.find t = some f → Open (h ++ [a]) t) → trim size p = p := by
      intro p hp hop
      rcases hv with rfl | hv
      · rfl
      · exact trim_eq (length_le hp hop (hv (h ++ [a]) (List.prefix_refl _)))
    have hu := update_exact ih ho
    rw [after_snoc]
    unfold receive
    dsimp only
    have hfa := OMap.find_assign ih.sorted a.stamp
    have hsa := OMap.sorted_assign ih.sorted a.stamp
      (Function.update (((after size h).pending.find a.stamp).getD (fun _ => none)) a.input (some a.msg))
    generalize Function.update (((after size h).pending.find a.stamp).getD (fun _ => none)) a.input (some a.msg) = f at *
    have hcomp : (∃ g, complete f = some g) ↔ AllIn (h ++ [a]) a.stamp := by
      constructor
      · rintro ⟨g, hg⟩ i
        exact ⟨g i, (hu i (g i)).1 (complete_some.1 hg i)⟩
      · intro hall
        choose g hg using hall
        exact ⟨g, complete_some.2 fun i => (hu i (g i)).2 (hg i)⟩
    have hcalls : ∀ t g, t ≠ a.stamp → ((t, g) ∈ (after size h).calls ↔ ∀ i, (⟨i, t, g i⟩ : Arrival n M) ∈ h ++ [a]) := by
      intro t g hne
      rw [ih.calls]
      exact forall_congr' fun i => (mem_snoc_ne hne).symm
    have hnone : ∀ g, (a.stamp, g) ∉ (after size h).calls := by
      intro g hm
      exact absurd (allIn_lt ho (fun i => ⟨g i, (ih.calls _ g).1 hm i⟩)) (lt_irrefl _)
    split
    · rename_i g hg
      have hall := hcomp.1 ⟨g, hg⟩
      have hso := OMap.sorted_filter (OMap.sorted_erase hsa a.stamp) (fun e => decide (a.stamp < e.1))
      have hfind : ∀ t, OMap.find ((((after size h).pending.assign a.stamp f).erase a.stamp).filter
          (fun e => decide (a.stamp < e.1))) t
            = if a.stamp < t then (after size h).pending.find t else none := by
        intro t
        rw [OMap.find_filter_key _ (fun k => decide (a.stamp < k))]
        by_cases hlt : a.stamp < t
        · rw [if_pos (decide_eq_true hlt), if_pos hlt, OMap.find_erase, hfa]
          have h1 : ¬ t = a.stamp := fun he => absurd hlt (by rw [he]; exact lt_irrefl _)
          simp only [h1, if_false]
        · rw [if_neg (by simpa using hlt), if_neg hlt]
      generalize List.filter (fun e => decide (a.stamp < e.1))
          (((after size h).pending.assign a.stamp f).erase a.stamp) = p at *
      have hopen : ∀ t, a.stamp < t → (Open (h ++ [a]) t ↔ Open h t) := by
        intro t hlt
        unfold Open
        refine and_congr ?_ ?_
        · exact exists_congr fun i => exists_congr fun m => mem_snoc_ne (ne_of_gt hlt)
        · exact forall_congr' fun t' => forall_congr' fun ht' => not_congr (allIn_snoc_ne (ne_of_gt (lt_of_lt_of_le hlt ht')))
      have ho1 : ∀ t f', OMap.find p t = some f' → Open (h ++ [a]) t := by
        intro t f' hf'
        rw [hfind] at hf'
        split at hf'
        · rename_i hlt
          exact (hopen t hlt).2 (ih.isOpen t f' hf')
        · cases hf'
      rw [hv' _ hso ho1]
      refine ⟨hso, ho1, ?_, ?_, ?_⟩
      · intro t f' hf' i m
        rw [hfind] at hf'
        split at hf'
        · rename_i hlt
          rw [mem_snoc_ne (ne_of_gt hlt)]
          exact ih.tuple t f' hf' i m
        · cases hf'
      · intro t ht
        have hlt : a.stamp < t := by
          by_contra hle
          exact ht.2 a.stamp (not_lt.1 hle) hall
        rw [hfind, if_pos hlt]
        exact ih.held t ((hopen t hlt).1 ht)
      · intro t g'
        rw [List.mem_append, List.mem_singleton]
        by_cases hne : t = a.stamp
        · subst hne
          constructor
          · rintro (hm | hm)
            · exact absurd hm (hnone g')
            · have : g' = g := (Prod.mk.inj hm).2
              subst this
              exact fun i => (hu i (g' i)).1 (complete_some.1 hg i)
          · intro hm
            refine .inr (congrArg _ (funext fun i => ?_))
            have h1 := (hu i (g' i)).2 (hm i)
            rw [complete_some.1 hg i] at h1
            exact (Option.some.inj h1).symm
        · rw [← hcalls t g' hne]
          constructor
          · rintro (hm | hm)
            · exact hm
            · exact absurd (Prod.mk.inj hm).1 hne
          · exact .inl
    · rename_i hg
      have hnot : ¬ AllIn (h ++ [a]) a.stamp := by
        rw [← hcomp]
        rintro ⟨g, hg'⟩
        rw [hg] at hg'
        cases hg'
      have hall : ∀ t, AllIn (h ++ [a]) t ↔ AllIn h t := by
        intro t
        by_cases hne : t = a.stamp
        · subst hne
          exact ⟨fun hh => absurd hh hnot, fun hh => absurd (allIn_mono hh) hnot⟩
        · exact allIn_snoc_ne hne
      have hself : Open (h ++ [a]) a.stamp := by
        refine ⟨⟨a.input, a.msg, List.mem_append_right _ (List.mem_singleton.2 rfl)⟩, fun t' ht' hh => ?_⟩
        exact absurd (allIn_lt ho ((hall t').1 hh)) (not_lt.2 ht')
      have hopen : ∀ t, t ≠ a.stamp → (Open (h ++ [a]) t ↔ Open h t) := by
        intro t hne
        unfold Open
        refine and_congr ?_ ?_
        · exact exists_congr fun i => exists_congr fun m => mem_snoc_ne hne
        · exact forall_congr' fun t' => forall_congr' fun _ => not_congr (hall t')
      have hfind : ∀ t, ((after size h).pending.assign a.stamp f).find t = if t = a.stamp then some f else (after size h).pending.find t := by
        intro t
        rw [hfa]
      generalize (after size h).pending.assign a.stamp f = p at *
      have ho1 : ∀ t f', OMap.find p t = some f' → Open (h ++ [a]) t := by
        intro t f' hf'
        rw [hfind] at hf'
        split at hf'
        · rename_i he
          rw [he]
          exact hself
        · rename_i hne
          exact (hopen t hne).2 (ih.isOpen t f' hf')
      rw [hv' _ hsa ho1]
      refine ⟨hsa, ho1, ?_, ?_, ?_⟩
      · intro t f' hf' i m
        rw [hfind] at hf'
        split at hf'
        · rename_i he
          cases hf'
          rw [he]
          exact hu i m
        · rename_i hne
          rw [mem_snoc_ne hne]
          exact ih.tuple t f' hf' i m
      · intro t ht
        rw [hfind]
        split
        · intro e; cases e
        · rename_i hne
          exact ih.held t ((hopen t hne).1 ht)
      · intro t g'
        by_cases hne : t = a.stamp
        · subst hne
          exact ⟨fun hm => absurd hm (hnone g'), fun hm => absurd (fun i => ⟨g' i, hm i⟩) hnot⟩
        · exact hcalls t g' hne

/-! ### A synchroniser of limited size beside one without limit -/

theorem alter_append_right {D P : OMap Int (Fin n → Option M)} {t : Int} {g : Option (Fin n → Option M) → Fin n → Option M}
    (hd : ∀ e ∈ D, e.1 < t) : OMap.alter (D ++ P) t g = D ++ OMap.alter P t g := by
  induction D with
  | nil => rfl
  | cons e D ih =>
    have he := hd e (List.mem_cons_self)
    have ih := ih (fun x hx => hd x (List.mem_cons_of_mem _ hx))
    rw [List.cons_append, OMap.alter.eq_def]
    dsimp only
    rw [if_neg (not_lt.2 he.le), if_neg (ne_of_gt he), ih]
    rfl

theorem alter_append_left {D P : OMap Int (Fin n → Option M)} {t : Int} {g : Option (Fin n → Option M) → Fin n → Option M}
    (hp : ∀ e ∈ P, t < e.1) : OMap.alter (D ++ P) t g = OMap.alter D t g ++ P := by
  induction D with
  | nil =>
    cases P with
    | nil => rfl
    | cons e P =>
      rw [List.nil_append, OMap.alter.eq_def]
      dsimp only
      rw [if_pos (hp e List.mem_cons_self)]
      rfl
  | cons e D ih =>
    rw [List.cons_append, OMap.alter.eq_def, OMap.alter.eq_def]
    dsimp only
    split
    · rfl
    · split
      · rfl
      · rw [ih]; rfl

theorem trim_append {size : Nat} (hs : size ≠ 0) {D X : OMap Int (Fin n → Option M)} (h : D = [] ∨ size ≤ X.length) :
    trim size (D ++ X) = trim size X := by
  rcases h with rfl | h
  · rfl
  · unfold trim
    rw [if_neg hs, if_neg hs, List.length_append, show D.length + X.length - size = D.length + (X.length - size) by omega,
      List.drop_append]
    simp

/-- The tuples later than `t`. -/
def later (p : OMap Int (Fin n → Option M)) (t : Int) : Nat := (p.filter (fun e => decide (t < e.1))).length

/-- The two parts of a queue: what is dropped, and what is left. -/
theorem trim_parts {size : Nat} (hs : size ≠ 0) {p : OMap Int (Fin n → Option M)} (hp : p.Sorted) :
    ∃ D : OMap Int (Fin n → Option M), p = D ++ trim size p ∧ (D = [] ∨ (trim size p).length = size) ∧
      ∀ d ∈ D, ∀ e ∈ trim size p, d.1 < e.1 := by
  have hsplit : p = p.take (p.length - size) ++ trim size p := by
    unfold trim
    rw [if_neg hs, List.take_append_drop]
  refine ⟨p.take (p.length - size), hsplit, ?_, ?_⟩
  · unfold trim
    rw [if_neg hs, List.length_drop]
    by_cases h : p.length ≤ size
    · left
      rw [Nat.sub_eq_zero_of_le h]
      rfl
    · right
      omega
  · have hp' : (p.take (p.length - size) ++ trim size p).Pairwise (fun a b => a.1 < b.1) := by
      rw [← hsplit]
      exact hp
    exact (List.pairwise_append.1 hp').2.2

theorem tuple_alone {f : Fin n → Option M} (hn : 2 ≤ n) (i : Fin n) (m : M) (hf : f = fun _ => none) :
    complete (Function.update f i (some m)) = none := by
  rw [complete_none]
  have : ∃ j : Fin n, j ≠ i := by
    by_cases h : i.val = 0
    · exact ⟨⟨1, by omega⟩, fun e => by rw [← e] at h; cases h⟩
    · exact ⟨⟨0, by omega⟩, fun e => h (by rw [← e])⟩
  obtain ⟨j, hj⟩ := this
  exact ⟨j, by rw [Function.update_of_ne hj, hf]⟩

theorem find_append_right {D P : OMap Int (Fin n → Option M)} {t : Int} (hd : ∀ e ∈ D, e.1 < t) :
    OMap.find (D ++ P) t = OMap.find P t := by
  induction D with
  | nil => rfl
  | cons e D ih =>
    rw [List.cons_append, OMap.find_cons, if_neg (ne_of_gt (hd e List.mem_cons_self))]
    exact ih (fun x hx => hd x (List.mem_cons_of_mem _ hx))

/-- A message that comes when fewer than `size` later stamps are open is treated as without limit. -/
theorem limited_room {size : Nat} (hs : size ≠ 0) {p : OMap Int (Fin n → Option M)} (hp : p.Sorted) (c c' : List (Int × (Fin n → M)))
    (a : Arrival n M) (hl : later p a.stamp < size) :
    (receive size ⟨trim size p, c⟩ a).pending = trim size (receive 0 ⟨p, c'⟩ a).pending ∧
      ∃ new, (receive size ⟨trim size p, c⟩ a).calls = c ++ new ∧ (receive 0 ⟨p, c'⟩ a).calls = c' ++ new := by
  obtain ⟨D, hsplit, hD, hlt⟩ := trim_parts hs hp
  have hd : ∀ d ∈ D, d.1 < a.stamp := by
    intro d hd
    by_contra hle
    have hlen := hD.resolve_left (List.ne_nil_of_mem hd)
    have : size ≤ later p a.stamp := by
      unfold later
      rw [hsplit, List.filter_append, List.length_append]
      rw [List.filter_eq_self.2 (fun e he => decide_eq_true (lt_of_le_of_lt (not_lt.1 hle) (hlt d hd e he)))]
      omega
    omega
  generalize trim size p = P at *
  subst hsplit
  unfold receive
  dsimp only
  rw [find_append_right hd]
  generalize Function.update ((OMap.find P a.stamp).getD (fun _ => none)) a.input (some a.msg) = f
  have hass : OMap.assign (D ++ P) a.stamp f = D ++ OMap.assign P a.stamp f := alter_append_right hd
  rw [hass]
  have htrim0 : ∀ q : OMap Int (Fin n → Option M), trim 0 q = q := fun _ => rfl
  cases complete f with
  | some g =>
    refine ⟨?_, [(a.stamp, g)], rfl, rfl⟩
    dsimp only
    rw [htrim0]
    unfold OMap.erase
    rw [List.filter_append, List.filter_append]
    have : List.filter (fun e => decide (a.stamp < e.1)) (List.filter (fun e => decide (e.1 ≠ a.stamp)) D) = [] := by
      rw [List.filter_eq_nil_iff]
      intro e he
      have := hd e (List.mem_of_mem_filter he)
      simpa using this.le
    rw [this]
    rfl
  | none =>
    refine ⟨?_, [], (List.append_nil _).symm, (List.append_nil _).symm⟩
    dsimp only
    rw [htrim0]
    refine (trim_append hs ?_).symm
    refine hD.imp id fun hlen => ?_
    rw [← hlen]
    have : ∀ q : OMap Int (Fin n → Option M), q.length ≤ (OMap.assign q a.stamp f).length := by
      intro q
      unfold OMap.assign
      induction q with
      | nil => exact Nat.zero_le _
      | cons e q ih =>
        rw [OMap.alter.eq_def]
        dsimp only
        split
        · simp
        · split
          · simp
          · simpa using ih
    exact this P

/-- A message that comes when `size` or more later stamps are open is dropped at once, and nothing else changes. -/
theorem limited_over {size : Nat} (hn : 2 ≤ n) (hs : size ≠ 0) {p : OMap Int (Fin n → Option M)} (hp : p.Sorted)
    (c c' : List (Int × (Fin n → M))) (a : Arrival n M) (hl : size ≤ later p a.stamp) :
    (receive size ⟨trim size p, c⟩ a).pending = trim size (receive 0 ⟨p, c'⟩ a).pending ∧
      (receive size ⟨trim size p, c⟩ a).calls = c := by
  obtain ⟨D, hsplit, hD, hlt⟩ := trim_parts hs hp
  have hlen : (trim size p).length = size := by
    rcases hD with rfl | h
    · have h1 : (trim size p).length ≤ size := trim_length p hs
      have h2 : later p a.stamp ≤ p.length := List.length_filter_le _ _
      rw [List.nil_append] at hsplit
      rw [← hsplit] at h1 ⊢
      omega
    · exact h
  have hP : ∀ e ∈ trim size p, a.stamp < e.1 := by
    intro e he
    by_contra hle
    have : later p a.stamp < size := by
      unfold later
      rw [hsplit, List.filter_append, List.length_append]
      have h1 : List.filter (fun e => decide (a.stamp < e.1)) D = [] := by
        rw [List.filter_eq_nil_iff]
        intro d hd
        have := hlt d hd e he
        have := not_lt.1 hle
        simp only [decide_eq_true_eq]
        omega
      rw [h1, List.length_nil, Nat.zero_add]
      have h2 : (List.filter (fun e => decide (a.stamp < e.1)) (trim size p)).length < (trim size p).length := by
        rw [List.length_filter_lt_length_iff_exists]
        exact ⟨e, he, by simpa using hle⟩
      omega
    omega
  generalize trim size p = P at *
  subst hsplit
  unfold receive
  dsimp only
  have hfind : OMap.find P a.stamp = none := OMap.find_eq_none_of_lt hP
  rw [hfind, Option.getD_none, tuple_alone hn a.input a.msg rfl]
  dsimp only
  refine ⟨?_, rfl⟩
  have hass : ∀ f (E : OMap Int (Fin n → Option M)), OMap.assign (E ++ P) a.stamp f = OMap.assign E a.stamp f ++ P :=
    fun f E => alter_append_left hP
  have htrim0 : ∀ q : OMap Int (Fin n → Option M), trim 0 q = q := fun _ => rfl
  have hself : trim size P = P := trim_eq hlen.le
  have hreal : ∀ f, trim size (OMap.assign P a.stamp f) = P := by
    intro f
    have := hass f []
    rw [List.nil_append] at this
    rw [this, trim_append hs (.inr hlen.ge), hself]
  rw [hreal]
  generalize Function.update ((OMap.find (D ++ P) a.stamp).getD (fun _ => none)) a.input (some a.msg) = f
  cases complete f with
  | some g =>
    dsimp only
    rw [htrim0, hass]
    unfold OMap.erase
    rw [List.filter_append, List.filter_append]
    have h1 : List.filter (fun e => decide (e.1 ≠ a.stamp)) P = P :=
      List.filter_eq_self.2 fun e he => decide_eq_true (ne_of_gt (hP e he))
    have h2 : List.filter (fun e => decide (a.stamp < e.1)) P = P :=
      List.filter_eq_self.2 fun e he => decide_eq_true (hP e he)
    rw [h1, h2, trim_append hs (.inr hlen.ge), hself]
  | none =>
    dsimp only
    rw [htrim0, hass, trim_append hs (.inr hlen.ge), hself]

theorem limited_pending {size : Nat} (hn : 2 ≤ n) (hs : size ≠ 0) (h : List (Arrival n M)) :
    (after size h).pending = trim size (after 0 h).pending := by
  induction h using List.reverseRecOn with
  | nil =>
    show ([] : OMap Int (Fin n → Option M)) = trim size []
    exact (trim_eq (Nat.zero_le _)).symm
  | append_singleton h a ih =>
    have hst : after size h = ⟨trim size (after 0 h).pending, (after size h).calls⟩ := by rw [← ih]
    have hso := (after_sound 0 h).sorted
    rw [after_snoc, after_snoc, hst]
    by_cases hl : later (after 0 h).pending a.stamp < size
    · exact (limited_room hs hso _ (after 0 h).calls a hl).1
    · exact (limited_over hn hs hso _ (after 0 h).calls a (not_lt.1 hl)).1

/-- When a message makes the synchroniser call: exactly if it would without limit and fewer than `size` later stamps are open. -/
theorem limited_calls {size : Nat} (hn : 2 ≤ n) (hs : size ≠ 0) (h : List (Arrival n M)) (a : Arrival n M) :
    ∃ new, (after 0 (h ++ [a])).calls = (after 0 h).calls ++ new ∧
      (after size (h ++ [a])).calls = (after size h).calls ++ if later (after 0 h).pending a.stamp < size then new else [] := by
  have hst : after size h = ⟨trim size (after 0 h).pending, (after size h).calls⟩ := by rw [← limited_pending hn hs]
  have hso := (after_sound 0 h).sorted
  rw [after_snoc, after_snoc]
  by_cases hl : later (after 0 h).pending a.stamp < size
  · obtain ⟨_, new, h1, h2⟩ := limited_room hs hso (after size h).calls (after 0 h).calls a hl
    refine ⟨new, h2, ?_⟩
    rw [if_pos hl, ← h1, ← hst]
  · obtain ⟨_, h1⟩ := limited_over hn hs hso (after size h).calls (after 0 h).calls a (not_lt.1 hl)
    have : ∃ new, (receive 0 (after 0 h) a).calls = (after 0 h).calls ++ new := by
      unfold receive
      dsimp only
      split
      · exact ⟨_, rfl⟩
      · exact ⟨[], (List.append_nil _).symm⟩
    obtain ⟨new, hnew⟩ := this
    refine ⟨new, hnew, ?_⟩
    rw [if_neg hl, List.append_nil, hst]
    exact h1

/-! ### Subscription queues -/

theorem arrived_snoc (es : List (Ev M)) (e : Ev M) :
    arrived (es ++ [e]) = arrived es ++ (match e with | .arrive m => [m] | .take => []) := by
  induction es with
  | nil => cases e <;> rfl
  | cons x es ih => cases x <;> simp [arrived, ih]

theorem sub_snoc (cap : Nat) (es : List (Ev M)) (e : Ev M) :
    Subscription.after cap (es ++ [e]) = (Subscription.after cap es).step cap e := by
  unfold Subscription.after; rw [List.foldl_append]; rfl

/-- What was handled and what waits are messages that arrived, in the order of arrival. -/
theorem sub_sublist (cap : Nat) (es : List (Ev M)) :
    ((Subscription.after cap es).handled ++ (Subscription.after cap es).queue).Sublist (arrived es) := by
  induction es using List.reverseRecOn with
  | nil => exact List.Sublist.refl _
  | append_singleton es e ih =>
    rw [arrived_snoc, sub_snoc]
    cases e with
    | arrive m =>
      show ((Subscription.after cap es).handled ++ ((if cap ≠ 0 ∧ cap ≤ (Subscription.after cap es).queue.length
        then (Subscription.after cap es).queue.drop 1 else (Subscription.after cap es).queue) ++ [m])).Sublist _
      rw [← List.append_assoc]
      refine List.Sublist.append ?_ (List.Sublist.refl _)
      split
      · exact (List.Sublist.append (List.Sublist.refl _) (List.drop_sublist _ _)).trans ih
      · exact ih
    | take =>
      unfold Subscription.step
      dsimp only
      rw [List.append_nil]
      split
      · exact ih
      · rename_i m rest hq
        dsimp only
        rw [List.append_assoc]
        rw [hq] at ih
        exact ih

/-! ### One message per state -/

theorem mem_stamps {h : List (Arrival n M)} {i : Fin n} {t : Int} : t ∈ stamps h i ↔ ∃ m, (⟨i, t, m⟩ : Arrival n M) ∈ h := by
  unfold stamps
  rw [List.mem_map]
  constructor
  · rintro ⟨⟨i', t', m⟩, ha, rfl⟩
    obtain ⟨h1, h2⟩ := List.mem_filter.1 ha
    obtain rfl : i' = i := of_decide_eq_true h2
    exact ⟨m, h1⟩
  · rintro ⟨m, hm⟩
    exact ⟨_, List.mem_filter.2 ⟨hm, decide_eq_true rfl⟩, rfl⟩

theorem mem_stamps_perState {T : Nat → Int} {h : List (Arrival n M)} (hp : PerState T h) {i : Fin n} {t : Int} :
    t ∈ stamps h i ↔ ∃ k < (stamps h i).length, T k = t := by
  conv_lhs => rw [hp i]
  simp [List.mem_map]

theorem perState_prefix {T : Nat → Int} {p h : List (Arrival n M)} (hp : PerState T h) (hpre : p <+: h) : PerState T p := by
  intro i
  have h1 : stamps p i <+: stamps h i := (hpre.filter _).map _
  have h2 := List.prefix_iff_eq_take.1 h1
  have h3 := h1.length_le
  generalize (stamps p i).length = k at *
  rw [h2, hp i, ← List.map_take, List.take_range, Nat.min_eq_left h3]

theorem perState_inOrder {T : Nat → Int} (hT : StrictMono T) {h : List (Arrival n M)} (hp : PerState T h) : InOrder h := by
  unfold InOrder
  rw [List.pairwise_iff_forall_sublist]
  intro a b hab hi
  have h1 : [a, b].filter (fun x => decide (x.input = b.input)) = [a, b] := by simp [hi]
  have h2 : [a.stamp, b.stamp].Sublist (stamps h b.input) := by
    have := (hab.filter (fun x => decide (x.input = b.input))).map Arrival.stamp
    rwa [h1] at this
  rw [hp b.input] at h2
  have h3 : ((List.range (stamps h b.input).length).map T).Pairwise (· < ·) := by
    rw [List.pairwise_map]
    exact List.pairwise_lt_range.imp fun hlt => hT hlt
  exact List.pairwise_iff_forall_sublist.1 h3 h2

theorem allIn_iff {T : Nat → Int} (hT : StrictMono T) {h : List (Arrival n M)} (hn : 0 < n) (hp : PerState T h) {t : Int} :
    AllIn h t ↔ ∃ k, (∀ i, k < (stamps h i).length) ∧ T k = t := by
  unfold AllIn
  constructor
  · intro ha
    obtain ⟨k, -, hk⟩ := (mem_stamps_perState hp).1 (mem_stamps.2 (ha ⟨0, hn⟩))
    refine ⟨k, fun i => ?_, hk⟩
    obtain ⟨k', hk', he⟩ := (mem_stamps_perState hp).1 (mem_stamps.2 (ha i))
    rwa [← hT.injective (he.trans hk.symm)]
  · rintro ⟨k, hk, rfl⟩ i
    exact mem_stamps.1 ((mem_stamps_perState hp).2 ⟨k, hk i, rfl⟩)

theorem balanced_neverOver {T : Nat → Int} (hT : StrictMono T) {size : Nat} {h : List (Arrival n M)} (hp : PerState T h)
    (hb : Balanced size h) : NeverOver size h := by
  intro p hpre ts hts hopen
  have hpp := perState_prefix hp hpre
  rcases Nat.eq_zero_or_pos n with rfl | hn
  · cases ts with
    | nil => exact Nat.zero_le _
    | cons t ts =>
      obtain ⟨⟨i, _⟩, _⟩ := hopen t List.mem_cons_self
      exact i.elim0
  -- the input that is behind
  obtain ⟨j, hj⟩ : ∃ j : Fin n, ∀ i, (stamps p j).length ≤ (stamps p i).length := by
    have : Nonempty (Fin n) := ⟨⟨0, hn⟩⟩
    exact Finite.exists_min (fun i : Fin n => (stamps p i).length)
  have hsub : ts ⊆ (List.range' (stamps p j).length size).map T := by
    intro t ht
    obtain ⟨⟨i, m, hm⟩, hno⟩ := hopen t ht
    obtain ⟨k, hk, rfl⟩ := (mem_stamps_perState hpp).1 (mem_stamps.2 ⟨m, hm⟩)
    have h1 := hb p hpre i j
    have h2 : ¬ AllIn p (T k) := hno _ (le_refl _)
    rw [allIn_iff hT hn hpp] at h2
    have h3 : (stamps p j).length ≤ k := by
      by_contra hlt
      exact h2 ⟨k, fun i' => lt_of_lt_of_le (not_le.1 hlt) (hj i'), rfl⟩
    refine List.mem_map.2 ⟨k, List.mem_range'_1.2 ⟨h3, by omega⟩, rfl⟩
  have := (hts.subperm hsub).length_le
  rwa [List.length_map, List.length_range'] at this

end Sync

end Serpent
