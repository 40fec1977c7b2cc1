import Verif.Spec.FrontEnd
import Verif.Props.Utilities

/-!
# The functions of the front end
-/

namespace Serpent

namespace FrontEnd

open Utils

variable {A K : Type}

/-! ### Selection of IMU measurements -/

theorem selectImu_late (a b : Int) (l : List (Stamped A)) (h : ∀ x ∈ l, a < x.stamp) :
    selectImu a b l = .ok (l.filter (fun x => decide (x.stamp < b))) := by
  induction l with
  | nil => rfl
  | cons m rest ih =>
    have hm := h m (by simp)
    have ih := ih (fun x hx => h x (by simp [hx]))
    unfold selectImu
    by_cases hb : m.stamp < b
    · rw [if_pos hb, if_pos hm, ih]
      simp [hb]
    · rw [if_neg hb, ih]
      simp [hb]

/-- The selection on a buffer that starts not later than `a`. -/
theorem selectImu_cases (a b : Int) (hab : a < b) (l : List (Stamped A)) (ho : Ordered l) (m : Stamped A)
    (rest : List (Stamped A)) (hl : l = m :: rest) (hm : m.stamp ≤ a) :
    (selectImu a b l = .ub ∧ ∀ x ∈ l, x.stamp ≤ a) ∨
    ∃ before first after, l = before ++ first :: after ∧ after ≠ [] ∧ first.stamp ≤ a ∧ (∀ x ∈ after, a < x.stamp) ∧
      selectImu a b l = .ok (first :: after.filter (fun x => decide (x.stamp < b))) := by
  induction rest generalizing m l with
  | nil =>
    subst hl
    left
    refine ⟨?_, by simpa using hm⟩
    unfold selectImu
    rw [if_pos (by omega), if_neg (by omega)]
  | cons n rest ih =>
    subst hl
    obtain ⟨h1, h2⟩ := List.pairwise_cons.1 ho
    by_cases hn : n.stamp > a
    · right
      have hall : ∀ x ∈ n :: rest, a < x.stamp := by
        intro x hx
        rcases List.mem_cons.1 hx with rfl | hx
        · exact hn
        · have := (List.pairwise_cons.1 h2).1 x hx; omega
      refine ⟨[], m, n :: rest, rfl, by simp, hm, hall, ?_⟩
      unfold selectImu
      rw [if_pos (by omega), if_neg (by omega)]
      dsimp only
      rw [if_pos hn, selectImu_late a b _ hall]
      rfl
    · have hs : selectImu a b (m :: n :: rest) = selectImu a b (n :: rest) := by
        conv_lhs => unfold selectImu
        rw [if_pos (by omega), if_neg (by omega)]
        dsimp only
        rw [if_neg hn]
      rcases ih (n :: rest) h2 n rfl (by omega) with ⟨h3, h4⟩ | ⟨p, f, q, h3, h4, h5, h6, h7⟩
      · left
        refine ⟨by rw [hs, h3], ?_⟩
        intro x hx
        rcases List.mem_cons.1 hx with rfl | hx
        · exact hm
        · exact h4 x hx
      · right
        exact ⟨m :: p, f, q, by rw [h3]; rfl, h4, h5, h6, by rw [hs, h7]⟩

theorem deleteOld_split (before : List (Stamped A)) (m : Stamped A) (after : List (Stamped A))
    (h : StrictlyOrdered (before ++ m :: after)) : deleteOld m.stamp (before ++ m :: after) = m :: after := by
  induction before with
  | nil => simp [deleteOld]
  | cons x rest ih =>
    obtain ⟨h1, h2⟩ := List.pairwise_cons.1 h
    have := h1 m (by simp)
    simp only [List.cons_append, deleteOld, this, if_true]
    exact ih h2

/-! ### Interpolation -/

theorem interpolatedImu_ok {interp : Stamped A → Stamped A → Int → Outcome (Stamped A)} {l : List (Stamped A)} {t : Int}
    {m : Stamped A} (h : interpolatedImu interp l t = .ok m) :
    ∃ first rest, l = first :: rest ∧ first.stamp ≤ t ∧ ∃ last, l.getLast? = some last ∧ t ≤ last.stamp := by
  match l, h with
  | a :: b :: rest, h =>
    unfold interpolatedImu at h
    dsimp only at h
    split at h
    · simp at h
    · rename_i hc
      refine ⟨a, b :: rest, rfl, by omega, (b :: rest).getLast (by simp), ?_, by omega⟩
      rw [List.getLast?_cons]
      simp [List.getLast?_eq_getLast_of_ne_nil]

/-! ### Integration -/

theorem steps_append (t : Int) (l : List (Stamped A)) (m : Stamped A) :
    steps t (l ++ [m]) = steps t l ++ [(m, m.stamp - ((l.getLast?.map (fun x => x.stamp)).getD t))] := by
  induction l generalizing t with
  | nil => rfl
  | cons x rest ih =>
    simp only [List.cons_append, steps, ih, List.cons.injEq, true_and, List.append_cancel_left_eq, Prod.mk.injEq,
      and_true]
    rw [List.getLast?_cons]
    cases rest with
    | nil => simp
    | cons y ys => simp [List.getLast?_cons]

theorem steps_map_fst (t : Int) (l : List (Stamped A)) : (steps t l).map Prod.fst = l := by
  induction l generalizing t with
  | nil => rfl
  | cons x rest ih => simp [steps, ih]

theorem steps_sum (t : Int) (l : List (Stamped A)) :
    ((steps t l).map Prod.snd).sum = (l.getLast?.map (fun x => x.stamp)).getD t - t := by
  induction l generalizing t with
  | nil => simp [steps]
  | cons x rest ih =>
    simp only [steps, List.map_cons, List.sum_cons, ih]
    rw [List.getLast?_cons]
    cases rest with
    | nil => simp
    | cons y ys => simp [List.getLast?_cons]

theorem reintegrate_eq (strict : Bool) (l : List (Stamped A)) (ho : StrictlyOrdered l) (t : Int)
    (p : List (Stamped A × Int)) :
    reintegrate strict l t p = .ok (p ++ steps t (l.filter (fun x => decide (t < x.stamp))),
      ((l.filter (fun x => decide (t < x.stamp))).getLast?.map (fun x => x.stamp)).getD t) := by
  induction l generalizing t p with
  | nil => simp [reintegrate, steps]
  | cons m rest ih =>
    obtain ⟨h1, h2⟩ := List.pairwise_cons.1 ho
    unfold reintegrate
    by_cases hm : m.stamp > t
    · rw [if_pos hm]
      have hr : record strict p m (m.stamp - t) = .ok (p ++ [(m, m.stamp - t)]) := by
        unfold record; rw [if_neg]; omega
      have hf : ∀ u, u ≤ m.stamp → rest.filter (fun x => decide (u < x.stamp)) = rest := by
        intro u hu
        rw [List.filter_eq_self]
        intro x hx
        have := h1 x hx
        simp; omega
      rw [hr, Outcome.bind_ok, ih h2, List.filter_cons_of_pos (by simpa using hm), hf _ (le_refl _), hf t (by omega)]
      simp only [steps, List.append_assoc, List.cons_append, List.nil_append, Outcome.ok.injEq, Prod.mk.injEq, true_and]
      rw [List.getLast?_cons]
      cases rest with
      | nil => simp
      | cons y ys => simp [List.getLast?_cons]
    · rw [if_neg hm, ih h2, List.filter_cons_of_neg (by simpa using hm)]

/-! ### Suffixes -/

theorem suffix_filter {l l' : List (Stamped A)} (hs : l' <:+ l) (ho : StrictlyOrdered l) (first : Stamped A)
    (hf : l'.head? = some first) (t : Int) (ht : first.stamp ≤ t) :
    l.filter (fun x => decide (t < x.stamp)) = l'.filter (fun x => decide (t < x.stamp)) := by
  obtain ⟨pre, rfl⟩ := hs
  rw [List.filter_append]
  have : pre.filter (fun x => decide (t < x.stamp)) = [] := by
    rw [List.filter_eq_nil_iff]
    intro x hx
    have := (List.pairwise_append.1 ho).2.2 x hx first (List.mem_of_mem_head? hf)
    simp; omega
  rw [this, List.nil_append]

/-! ### Barometer -/

theorem dropOldBaro_cases (t : Int) (l : List (Pressure K)) (a : Pressure K) (rest : List (Pressure K))
    (hl : l = a :: rest) (ha : a.stamp ≤ t) (last : Pressure K) (hlast : rest.getLast? = some last) (ht : t < last.stamp) :
    ∃ before x y after, l = before ++ x :: y :: after ∧ x.stamp ≤ t ∧ t ≤ y.stamp ∧
      dropOldBaro t l = .ok (x :: y :: after) ∧ (before ≠ [] → x.stamp < t) := by
  induction rest generalizing l a with
  | nil => simp at hlast
  | cons b rest ih =>
    subst hl
    unfold dropOldBaro
    by_cases hb : b.stamp < t
    · rw [if_pos hb]
      have hlast' : rest.getLast? = some last := by
        rw [List.getLast?_cons] at hlast
        cases hr : rest.getLast? with
        | none => rw [hr] at hlast; simp at hlast; subst hlast; omega
        | some z => rw [hr] at hlast; simpa using hlast
      obtain ⟨p, x, y, q, h1, h2, h3, h4, h5⟩ := ih (b :: rest) b rfl (by omega) hlast'
      refine ⟨a :: p, x, y, q, by rw [h1]; rfl, h2, h3, h4, fun _ => ?_⟩
      cases p with
      | nil => simp at h1; rw [← h1.1]; exact hb
      | cons _ _ => exact h5 (by simp)
    · rw [if_neg hb]
      exact ⟨[], a, b, rest, rfl, ha, by omega, rfl, fun h => absurd rfl h⟩

/-! ### Stereo -/

theorem dropOldStereo_mem (t : Int) (l : List Int) (x : Int) (h : x ∈ dropOldStereo t l) : x ∈ l := by
  induction l with
  | nil => exact h
  | cons y rest ih =>
    unfold dropOldStereo at h
    split at h
    · exact List.mem_cons_of_mem _ (ih h)
    · exact h

theorem dropOldStereo_head (t : Int) (l : List Int) (x : Int) (rest : List Int) (h : dropOldStereo t l = x :: rest) :
    t ≤ x := by
  induction l with
  | nil => simp [dropOldStereo] at h
  | cons y r ih =>
    unfold dropOldStereo at h
    split at h
    · exact ih h
    · rename_i hy
      simp at h
      omega

theorem dropOldStereo_nil (t : Int) (l : List Int) (h : dropOldStereo t l = []) : ∀ x ∈ l, x < t := by
  induction l with
  | nil => simp
  | cons y r ih =>
    unfold dropOldStereo at h
    split at h
    · rename_i hy
      intro x hx
      rcases List.mem_cons.1 hx with rfl | hx
      · exact hy
      · exact ih h x hx
    · simp at h

theorem dropOldStereo_split (t : Int) (l : List Int) (f : Int) (rest : List Int) (h : dropOldStereo t l = f :: rest) :
    ∃ old, l = old ++ f :: rest ∧ ∀ x ∈ old, x < t := by
  induction l with
  | nil => simp [dropOldStereo] at h
  | cons y r ih =>
    unfold dropOldStereo at h
    split at h
    · rename_i hy
      obtain ⟨old, h1, h2⟩ := ih h
      refine ⟨y :: old, by rw [h1]; rfl, ?_⟩
      intro x hx
      rcases List.mem_cons.1 hx with rfl | hx
      · exact hy
      · exact h2 x hx
    · exact ⟨[], h, by simp⟩

end FrontEnd

end Serpent
