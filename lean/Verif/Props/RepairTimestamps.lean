import Verif.Model.RepairTimestamps
import Mathlib.Data.List.Forall2
import Mathlib.Data.List.Infix
import Mathlib.Tactic.Ring
import Mathlib.Tactic.Linarith

/-!
# Repaired timestamps (C70)
-/

namespace Serpent

namespace Repair

variable {α : Type}

/-- The stamps `s'` are the stamps `s` repaired: a stamp that is not zero stays; one that is zero is the last one before it that is not
zero and a period for each place since; if there is none before it, a period for each place. -/
def Repaired (period : Int) (s s' : List Int) : Prop :=
  s'.length = s.length ∧ ∀ (i : Nat) (t : Int), s[i]? = some t →
    (t ≠ 0 → s'[i]? = some t) ∧
    (t = 0 →
      (∃ (j : Nat) (u : Int), j < i ∧ s[j]? = some u ∧ u ≠ 0 ∧ (∀ k : Nat, j < k → k ≤ i → s[k]? = some 0) ∧ s'[i]? = some (u + ((i : Int) - j) * period)) ∨
      ((∀ k : Nat, k ≤ i → s[k]? = some 0) ∧ s'[i]? = some (((i : Int) + 1) * period)))

/-- The stamps of the messages on a topic. -/
def stampsOn (topic : String) (l : List (BagMsg α)) : List Int := (l.filter (fun m => m.topic = topic)).filterMap (·.stamp)

/-- The stamps one by one. -/
def fill (last : Int) : List Int → List Int
  | [] => []
  | t :: s => if t = 0 then (last + pointcloudPeriod) :: fill (last + pointcloudPeriod) s else t :: fill t s

theorem fill_spec (last : Int) (s : List Int) : (fill last s).length = s.length ∧ ∀ (i : Nat) (t : Int), s[i]? = some t →
    (t ≠ 0 → (fill last s)[i]? = some t) ∧
    (t = 0 →
      (∃ (j : Nat) (u : Int), j < i ∧ s[j]? = some u ∧ u ≠ 0 ∧ (∀ k : Nat, j < k → k ≤ i → s[k]? = some 0) ∧
        (fill last s)[i]? = some (u + ((i : Int) - j) * pointcloudPeriod)) ∨
      ((∀ k : Nat, k ≤ i → s[k]? = some 0) ∧ (fill last s)[i]? = some (last + ((i : Int) + 1) * pointcloudPeriod))) := by
  induction s generalizing last with
  | nil => exact ⟨rfl, fun i t h => by simp at h⟩
  | cons x s ih =>
    rw [fill]
    by_cases hx : x = 0
    · rw [if_pos hx]
      obtain ⟨hl, h⟩ := ih (last + pointcloudPeriod)
      refine ⟨by rw [List.length_cons, hl, List.length_cons], ?_⟩
      rintro (_ | i) t ht
      · rw [List.getElem?_cons_zero, Option.some.injEq] at ht
        refine ⟨fun h0 => absurd (ht ▸ hx) h0, fun _ => Or.inr ⟨fun k hk => ?_, ?_⟩⟩
        · obtain rfl : k = 0 := by omega
          rw [List.getElem?_cons_zero, hx]
        · simp
      · rw [List.getElem?_cons_succ] at ht
        obtain ⟨h1, h2⟩ := h i t ht
        refine ⟨fun h0 => by rw [List.getElem?_cons_succ]; exact h1 h0, fun h0 => ?_⟩
        rcases h2 h0 with ⟨j, u, hj, hu, hu0, hz, e⟩ | ⟨hz, e⟩
        · refine Or.inl ⟨j + 1, u, by omega, by rw [List.getElem?_cons_succ]; exact hu, hu0, fun k hk hk' => ?_, ?_⟩
          · obtain ⟨k, rfl⟩ : ∃ k', k = k' + 1 := ⟨k - 1, by omega⟩
            rw [List.getElem?_cons_succ]
            exact hz k (by omega) (by omega)
          · rw [List.getElem?_cons_succ, e]
            push_cast
            congr 2
            ring
        · refine Or.inr ⟨fun k hk => ?_, ?_⟩
          · rcases k with _ | k
            · rw [List.getElem?_cons_zero, hx]
            · rw [List.getElem?_cons_succ]
              exact hz k (by omega)
          · rw [List.getElem?_cons_succ, e]
            push_cast
            congr 1
            ring
    · rw [if_neg hx]
      obtain ⟨hl, h⟩ := ih x
      refine ⟨by rw [List.length_cons, hl, List.length_cons], ?_⟩
      rintro (_ | i) t ht
      · rw [List.getElem?_cons_zero, Option.some.injEq] at ht
        exact ⟨fun _ => by rw [List.getElem?_cons_zero, ht], fun h0 => absurd (ht.trans h0) hx⟩
      · rw [List.getElem?_cons_succ] at ht
        obtain ⟨h1, h2⟩ := h i t ht
        refine ⟨fun h0 => by rw [List.getElem?_cons_succ]; exact h1 h0, fun h0 => Or.inl ?_⟩
        rcases h2 h0 with ⟨j, u, hj, hu, hu0, hz, e⟩ | ⟨hz, e⟩
        · refine ⟨j + 1, u, by omega, by rw [List.getElem?_cons_succ]; exact hu, hu0, fun k hk hk' => ?_, ?_⟩
          · obtain ⟨k, rfl⟩ : ∃ k', k = k' + 1 := ⟨k - 1, by omega⟩
            rw [List.getElem?_cons_succ]
            exact hz k (by omega) (by omega)
          · rw [List.getElem?_cons_succ, e]
            push_cast
            congr 2
            ring
        · refine ⟨0, x, by omega, rfl, hx, fun k hk hk' => ?_, ?_⟩
          · obtain ⟨k, rfl⟩ : ∃ k', k = k' + 1 := ⟨k - 1, by omega⟩
            rw [List.getElem?_cons_succ]
            exact hz k (by omega)
          · rw [List.getElem?_cons_succ, e]
            push_cast
            congr 1

/-- What the loop writes. -/
def written (last : Int) : List (BagMsg α) → List (BagMsg α)
  | [] => []
  | m :: l => if isIn m.topic pointcloudTopic then (correct m last 0).1 :: written (correct m last 0).2.1 l else m :: written last l

/-- How many the loop corrects. -/
def zeros (l : List (BagMsg α)) : Nat := l.countP (fun m => isIn m.topic pointcloudTopic ∧ m.stamp = some 0)

theorem correct_count (m : BagMsg α) (last : Int) (c : Nat) :
    correct m last c = ((correct m last 0).1, (correct m last 0).2.1, c + if m.stamp = some 0 then 1 else 0) := by
  unfold correct
  cases h : m.stamp with
  | none => simp
  | some t => by_cases h0 : t = 0 <;> simp [h0]

theorem loop (l : List (BagMsg α)) (s : State α) : ∃ last,
    l.foldl step s = { lastTimestamp := last, correctedCount := s.correctedCount + zeros l, written := s.written ++ written s.lastTimestamp l } := by
  induction l generalizing s with
  | nil => exact ⟨s.lastTimestamp, by simp [zeros, written]⟩
  | cons m l ih =>
    rw [List.foldl_cons]
    unfold step
    by_cases h : isIn m.topic pointcloudTopic = true
    · rw [if_pos h]
      obtain ⟨last, e⟩ := ih { lastTimestamp := (correct m s.lastTimestamp s.correctedCount).2.1,
                               correctedCount := (correct m s.lastTimestamp s.correctedCount).2.2,
                               written := s.written ++ [(correct m s.lastTimestamp s.correctedCount).1] }
      refine ⟨last, ?_⟩
      dsimp only
      unfold step at e
      rw [e, written, if_pos h]
      have h1 := correct_count m s.lastTimestamp s.correctedCount
      rw [h1]
      simp only [State.mk.injEq, true_and, List.append_assoc, List.cons_append, List.nil_append, and_true]
      rw [zeros, zeros, List.countP_cons]
      simp only [h, true_and]
      by_cases h0 : m.stamp = some 0 <;> simp [h0]
      omega
    · rw [if_neg h]
      obtain ⟨last, e⟩ := ih { s with written := s.written ++ [m] }
      refine ⟨last, ?_⟩
      unfold step at e
      rw [e, written, if_neg h]
      simp only [State.mk.injEq, true_and, List.append_assoc, List.cons_append, List.nil_append, and_true]
      rw [zeros, zeros, List.countP_cons]
      simp [h]

theorem isIn_self (a : String) : isIn a a = true := by
  unfold isIn
  rw [List.any_eq_true]
  exact ⟨a.toList, by rw [List.mem_tails], List.isPrefixOf_iff_prefix.2 (List.prefix_refl _)⟩

theorem isIn_iff (a b : String) : isIn a b = true ↔ a.toList <:+: b.toList := by
  unfold isIn
  rw [List.any_eq_true]
  constructor
  · rintro ⟨t, h1, h2⟩
    rw [List.mem_tails] at h1
    exact (List.isPrefixOf_iff_prefix.1 h2).isInfix.trans h1.isInfix
  · rintro ⟨u, v, h⟩
    refine ⟨a.toList ++ v, ?_, List.isPrefixOf_iff_prefix.2 ⟨v, rfl⟩⟩
    rw [List.mem_tails]
    exact ⟨u, by rw [← List.append_assoc]; exact h⟩

/-- No message is on a topic whose name is a part of the name of the point cloud topic. -/
def NoPartTopics (l : List (BagMsg α)) : Prop :=
  ∀ m ∈ l, m.topic.toList <:+: pointcloudTopic.toList → m.topic = pointcloudTopic

/-- C70 (count, order and everything else). Whatever the bag contains: the new bag has as many messages, in the same order; each has the
topic, the time of recording and the body of the message in the bag, and it has a stamp exactly if that one has. Messages whose topic is
not a part of the name of the point cloud topic are exactly as they were. -/
theorem C70_messages (bag : List (BagMsg α)) :
    List.Forall₂ (fun m m' => m'.topic = m.topic ∧ m'.time = m.time ∧ m'.body = m.body ∧ (m'.stamp.isSome ↔ m.stamp.isSome) ∧
      (¬ m.topic.toList <:+: pointcloudTopic.toList → m' = m)) bag (repair bag).written := by
  obtain ⟨last, e⟩ := loop bag ({} : State α)
  rw [repair, e]
  simp only [List.nil_append]
  generalize (0 : Int) = l0
  clear e
  induction bag generalizing l0 with
  | nil => exact List.Forall₂.nil
  | cons m l ih =>
    rw [written]
    by_cases h : isIn m.topic pointcloudTopic = true
    · rw [if_pos h]
      refine List.Forall₂.cons ?_ (ih _)
      · refine ⟨?_, ?_, ?_, ?_, fun hn => absurd ((isIn_iff _ _).1 h) hn⟩ <;> unfold correct <;> cases hs : m.stamp with
          | none => simp [hs]
          | some t => by_cases h0 : t = 0 <;> simp [h0, hs]
    · rw [if_neg h]
      exact List.Forall₂.cons ⟨rfl, rfl, rfl, Iff.rfl, fun _ => rfl⟩ (ih _)

/-- C70 (partial: topics whose names are parts of the name of the point cloud topic, see `C70_fails_topic`). The stamps of the clouds in
the new bag are those of the bag repaired; the number that is printed is the number of clouds whose stamp was zero. -/
theorem C70_stamps_partial (bag : List (BagMsg α)) (hp : NoPartTopics bag) :
    Repaired 100000000 (stampsOn "/os_cloud_node/points" bag) (stampsOn "/os_cloud_node/points" (repair bag).written) ∧
    (repair bag).correctedCount = (stampsOn "/os_cloud_node/points" bag).count 0 := by
  obtain ⟨last, e⟩ := loop bag ({} : State α)
  rw [repair, e]
  simp only [List.nil_append]
  have h1 : ∀ l0, stampsOn "/os_cloud_node/points" (written l0 bag) = fill l0 (stampsOn "/os_cloud_node/points" bag) := by
    clear e
    induction bag with
    | nil => exact fun _ => rfl
    | cons m l ih =>
      have ih := ih (fun x hx => hp x (List.mem_cons_of_mem _ hx))
      intro l0
      rw [written]
      by_cases h : isIn m.topic pointcloudTopic = true
      · rw [if_pos h]
        have ht : m.topic = "/os_cloud_node/points" := hp m List.mem_cons_self ((isIn_iff _ _).1 h)
        have ih := ih (correct m l0 0).2.1
        unfold stampsOn at ih ⊢
        have hc : (correct m l0 0).1.topic = "/os_cloud_node/points" := by
          rw [← ht]
          unfold correct
          cases m.stamp with
          | none => rfl
          | some t => by_cases h0 : t = 0 <;> simp [h0]
        rw [List.filter_cons_of_pos (by simp [hc]), List.filter_cons_of_pos (by simp [ht])]
        unfold correct at ih ⊢
        cases hs : m.stamp with
        | none =>
          simp only [hs] at ih
          rw [List.filterMap_cons_none hs, List.filterMap_cons_none (by simp [hs])]
          exact ih
        | some t =>
          simp only [hs] at ih
          by_cases h0 : t = 0
          · simp only [h0, if_true] at ih ⊢
            rw [List.filterMap_cons_some (b := l0 + pointcloudPeriod) (by rfl), List.filterMap_cons_some (b := 0) (by rw [hs, h0]), fill, if_pos rfl, ih]
          · simp only [h0, if_false] at ih ⊢
            rw [List.filterMap_cons_some (b := t) hs, List.filterMap_cons_some (b := t) hs, fill, if_neg h0, ih]
      · rw [if_neg h]
        have ht : m.topic ≠ "/os_cloud_node/points" := fun h' => h (by rw [h']; exact isIn_self _)
        have ih := ih l0
        unfold stampsOn at ih ⊢
        rw [List.filter_cons_of_neg (by simp [ht]), List.filter_cons_of_neg (by simp [ht]), ih]
  refine ⟨?_, ?_⟩
  · rw [h1]
    obtain ⟨ha, hb⟩ := fill_spec 0 (stampsOn "/os_cloud_node/points" bag)
    refine ⟨ha, fun i t ht => ⟨(hb i t ht).1, fun h0 => ?_⟩⟩
    rcases (hb i t ht).2 h0 with h | ⟨h, h'⟩
    · exact Or.inl h
    · exact Or.inr ⟨h, by rw [h', zero_add]; rfl⟩
  · rw [Nat.zero_add]
    clear e h1
    induction bag with
    | nil => rfl
    | cons m l ih =>
      have ih := ih (fun x hx => hp x (List.mem_cons_of_mem _ hx))
      unfold zeros stampsOn at ih ⊢
      rw [List.countP_cons, ih]
      by_cases ht : m.topic = "/os_cloud_node/points"
      · rw [List.filter_cons_of_pos (by simp [ht])]
        have hin : isIn m.topic pointcloudTopic = true := by rw [ht]; exact isIn_self _
        cases hs : m.stamp with
        | none => rw [List.filterMap_cons_none hs]; simp
        | some t =>
          rw [List.filterMap_cons_some (b := t) hs, List.count_cons]
          simp [hin]
      · rw [List.filter_cons_of_neg (by simp [ht])]
        have hin : isIn m.topic pointcloudTopic ≠ true := fun h => ht (hp m List.mem_cons_self ((isIn_iff _ _).1 h))
        simp [hin]

/-- C70. If the stamps of the clouds in the bag are not negative, no stamp of a cloud in the new bag is zero. -/
theorem C70_no_zero_partial (bag : List (BagMsg α)) (hp : NoPartTopics bag) (hn : ∀ t ∈ stampsOn "/os_cloud_node/points" bag, 0 ≤ t) :
    ∀ t ∈ stampsOn "/os_cloud_node/points" (repair bag).written, 0 < t := by
  obtain ⟨⟨hl, h⟩, -⟩ := C70_stamps_partial bag hp
  intro t ht
  obtain ⟨i, hi, e⟩ := List.getElem_of_mem ht
  have hi' : i < (stampsOn "/os_cloud_node/points" bag).length := hl ▸ hi
  have e : (stampsOn "/os_cloud_node/points" (repair bag).written)[i]? = some t := by rw [List.getElem?_eq_getElem hi, e]
  obtain ⟨h1, h2⟩ := h i _ (List.getElem?_eq_getElem hi')
  have hnn := hn _ (List.getElem_mem hi')
  by_cases h0 : (stampsOn "/os_cloud_node/points" bag)[i] = 0
  · rcases h2 h0 with ⟨j, u, hj, hu, hu0, -, e'⟩ | ⟨-, e'⟩
    · rw [e, Option.some.injEq] at e'
      have := hn u (List.mem_of_getElem? hu)
      have hij : (1 : Int) ≤ (i : Int) - j := by omega
      nlinarith
    · rw [e, Option.some.injEq] at e'
      omega
  · have := h1 h0
    rw [e, Option.some.injEq] at this
    omega

/-- A bag with clouds (some without a time), and a message of another topic. -/
def sampleBag : List (BagMsg Nat) :=
  [⟨"/os_cloud_node/points", 1, some 0, 10⟩, ⟨"/imu", 2, some 0, 11⟩, ⟨"/os_cloud_node/points", 3, some 500000000, 12⟩,
   ⟨"/os_cloud_node/points", 4, some 0, 13⟩, ⟨"/os_cloud_node/points", 5, some 0, 14⟩]

example : NoPartTopics sampleBag ∧ (∀ t ∈ stampsOn "/os_cloud_node/points" sampleBag, 0 ≤ t) ∧
    stampsOn "/os_cloud_node/points" (repair sampleBag).written = [100000000, 500000000, 600000000, 700000000] ∧
    stampsOn "/imu" (repair sampleBag).written = [0] := by
  refine ⟨?_, by decide +kernel, by decide +kernel, by decide +kernel⟩
  intro m hm h
  have h := (isIn_iff _ _).2 h
  revert m
  decide +kernel

/-- C70, false for other topics: a message on a topic whose name is a part of the name of the point cloud topic is changed as well, and
the stamps of clouds after it are repaired from its stamp. -/
theorem C70_fails_topic :
    let bag : List (BagMsg Nat) := [⟨"/os_cloud_node/points", 1, some 500000000, 10⟩, ⟨"/points", 2, some 0, 11⟩, ⟨"/points", 3, some 7, 12⟩,
      ⟨"/os_cloud_node/points", 4, some 0, 13⟩]
    stampsOn "/points" (repair bag).written = [600000000, 7] ∧
    stampsOn "/os_cloud_node/points" (repair bag).written = [500000000, 100000007] ∧
    ¬ Repaired 100000000 (stampsOn "/os_cloud_node/points" bag) (stampsOn "/os_cloud_node/points" (repair bag).written) := by
  have e1 : stampsOn "/os_cloud_node/points" ([⟨"/os_cloud_node/points", 1, some 500000000, 10⟩, ⟨"/points", 2, some 0, 11⟩, ⟨"/points", 3, some 7, 12⟩,
      ⟨"/os_cloud_node/points", 4, some 0, 13⟩] : List (BagMsg Nat)) = [500000000, 0] := by decide +kernel
  have e2 : stampsOn "/os_cloud_node/points" (repair ([⟨"/os_cloud_node/points", 1, some 500000000, 10⟩, ⟨"/points", 2, some 0, 11⟩, ⟨"/points", 3, some 7, 12⟩,
      ⟨"/os_cloud_node/points", 4, some 0, 13⟩] : List (BagMsg Nat))).written = [500000000, 100000007] := by decide +kernel
  refine ⟨by decide +kernel, e2, ?_⟩
  rw [e1, e2]
  rintro ⟨-, h⟩
  rcases (h 1 0 rfl).2 rfl with ⟨j, u, hj, hu, -, -, e⟩ | ⟨hz, -⟩
  · obtain rfl : j = 0 := by omega
    simp at hu e
    omega
  · have := hz 0 (by omega)
    simp at this

/-- C70: the repaired stamps are not interpolated, as the description of the script says: they can be after the next stamp. -/
theorem C70_fails_interpolated :
    let bag : List (BagMsg Nat) := [⟨"/os_cloud_node/points", 1, some 500000000, 10⟩, ⟨"/os_cloud_node/points", 2, some 0, 11⟩,
      ⟨"/os_cloud_node/points", 3, some 580000000, 12⟩]
    stampsOn "/os_cloud_node/points" (repair bag).written = [500000000, 600000000, 580000000] := by
  decide +kernel

end Repair

end Serpent
