import Verif.Lemmas.Synchroniser

/-!
# C144: messages of several topics are handled together exactly when their stamps agree

For every number of inputs, every order of arrival and every interleaving of the inputs. What does not hold: that every complete
set of messages is handled. A set is lost exactly if ten (the size given to every synchroniser in the code) later stamps were open
when its last message came.
-/

namespace Serpent

namespace Sync

variable {n : Nat} {M : Type}

/-- Two inputs (pointcloud 0, transform 1), three states; the transform of the second state comes before its cloud, and the cloud
of stamp 15 has no transform. -/
def pairs : List (Arrival 2 Nat) :=
  [⟨0, 10, 100⟩, ⟨1, 10, 200⟩, ⟨1, 20, 201⟩, ⟨0, 15, 115⟩, ⟨0, 20, 101⟩, ⟨0, 30, 102⟩, ⟨1, 30, 202⟩]

/-- C144: whatever the order of arrival, the messages of one call all came in, each by its own input, and have the stamp of the call:
messages of different stamps are never handled together. -/
theorem C144_same_stamp (size : Nat) (h : List (Arrival n M)) (t : Int) (g : Fin n → M) (hc : (t, g) ∈ (after size h).calls)
    (i : Fin n) : (⟨i, t, g i⟩ : Arrival n M) ∈ h :=
  (after_sound size h).calls (t, g) hc i

example : (after 10 pairs).calls.map (fun c => (c.1, c.2 0, c.2 1)) = [(10, 100, 200), (20, 101, 201), (30, 102, 202)] := by
  decide +kernel

/-- C144: if no input repeats a stamp, no stamp is handled twice. -/
theorem C144_once (size : Nat) (h : List (Arrival n M)) (hd : h.Pairwise (fun a b => a.input = b.input → a.stamp ≠ b.stamp)) :
    ((after size h).calls.map Prod.fst).Nodup := by
  unfold List.Nodup
  rw [List.pairwise_map]
  exact calls_pairwise (· ≠ ·) size h hd

/-- C144: if the stamps of every input increase, so do those of the calls, whatever the interleaving of the inputs. -/
theorem C144_increasing (size : Nat) (h : List (Arrival n M)) (ho : InOrder h) :
    (after size h).calls.Pairwise (fun c d => c.1 < d.1) :=
  calls_pairwise (· < ·) size h ho

example : InOrder pairs := by unfold InOrder pairs; decide +kernel

/-- C144: the synchroniser never keeps more sets than its size. -/
theorem C144_bounded (size : Nat) (hs : size ≠ 0) (h : List (Arrival n M)) : (after size h).pending.length ≤ size := by
  induction h using List.reverseRecOn with
  | nil => exact Nat.zero_le _
  | append_singleton h a _ =>
    rw [after_snoc]
    unfold receive
    dsimp only
    split
    · exact trim_length _ hs
    · exact trim_length _ hs

theorem fits_iff (hn : 0 < n) (size : Nat) (h : List (Arrival n M)) (ho : InOrder h) (t : Int) :
    later (after 0 h).pending t < size ↔ Fits size h t := by
  have he := after_exact hn 0 h ho (.inl rfl)
  unfold later Fits
  constructor
  · intro hl ts hts hopen
    refine lt_of_le_of_lt ?_ hl
    have hsub : ts ⊆ (List.filter (fun e => decide (t < e.1)) (after 0 h).pending).map Prod.fst := by
      intro t' ht'
      obtain ⟨h1, h2⟩ := hopen t' ht'
      obtain ⟨f, hf⟩ := Option.ne_none_iff_exists'.1 (he.held t' h2)
      exact List.mem_map.2 ⟨(t', f), List.mem_filter.2 ⟨OMap.mem_of_find hf, decide_eq_true h1⟩, rfl⟩
    have := (hts.subperm hsub).length_le
    rwa [List.length_map] at this
  · intro hf
    have := hf ((List.filter (fun e => decide (t < e.1)) (after 0 h).pending).map Prod.fst) ?_ ?_
    · rwa [List.length_map] at this
    · unfold List.Nodup
      rw [List.pairwise_map]
      exact (OMap.sorted_filter he.sorted _).imp fun hlt => ne_of_lt hlt
    · intro t' ht'
      obtain ⟨e, hm, rfl⟩ := List.mem_map.1 ht'
      obtain ⟨h1, h2⟩ := List.mem_filter.1 hm
      exact ⟨of_decide_eq_true h2, he.isOpen e.1 e.2 (OMap.find_of_mem he.sorted h1)⟩

/-- C144, exactly which sets are handled when the stamps of every input increase: those that became complete while fewer than `size`
later stamps were open. -/
theorem C144_exactly_partial (size : Nat) (hs : size ≠ 0) (hn : 2 ≤ n) (h : List (Arrival n M)) (ho : InOrder h) (t : Int)
    (g : Fin n → M) :
    (t, g) ∈ (after size h).calls ↔
      ∃ p a, p ++ [a] <+: h ∧ a.stamp = t ∧ (∀ i, (⟨i, t, g i⟩ : Arrival n M) ∈ p ++ [a]) ∧ Fits size p t := by
  induction h using List.reverseRecOn with
  | nil =>
    constructor
    · intro hm; cases hm
    · rintro ⟨p, a, hp, -⟩
      have := hp.length_le
      simp at this
  | append_singleton h b ih =>
    have ho' := (List.pairwise_append.1 ho).1
    have ih := ih ho'
    obtain ⟨new, h0, h1⟩ := limited_calls hn hs h b
    have e0 := after_exact (by omega) 0 h ho' (.inl rfl)
    have e1 := after_exact (by omega) 0 (h ++ [b]) ho (.inl rfl)
    have hnew : ∀ t g, (t, g) ∈ new ↔ b.stamp = t ∧ ∀ i, (⟨i, t, g i⟩ : Arrival n M) ∈ h ++ [b] := by
      intro t g
      constructor
      · intro hm
        refine ⟨?_, (e1.calls t g).1 (by rw [h0]; exact List.mem_append_right _ hm)⟩
        rcases calls_snoc 0 h b with hc | ⟨g', hc⟩
        · rw [hc] at h0
          have := List.self_eq_append_right.1 h0
          rw [this] at hm
          cases hm
        · rw [hc] at h0
          have := List.append_cancel_left h0
          rw [← this, List.mem_singleton] at hm
          exact (Prod.mk.inj hm).1.symm
      · rintro ⟨rfl, hm⟩
        have := (e1.calls _ g).2 hm
        rw [h0] at this
        rcases List.mem_append.1 this with hm' | hm'
        · exact absurd (allIn_lt ho (fun i => ⟨g i, (e0.calls _ g).1 hm' i⟩)) (lt_irrefl _)
        · exact hm'
    rw [h1, List.mem_append, ih]
    constructor
    · rintro (⟨p, a, hp, h2⟩ | hm)
      · exact ⟨p, a, hp.trans (List.prefix_append _ _), h2⟩
      · split at hm
        · rename_i hl
          obtain ⟨rfl, h3⟩ := (hnew t g).1 hm
          exact ⟨h, b, List.prefix_refl _, rfl, h3, (fits_iff (by omega) size h ho' _).1 hl⟩
        · cases hm
    · rintro ⟨p, a, hp, rfl, h2, h3⟩
      rcases List.prefix_concat_iff.1 hp with he | hp
      · obtain ⟨rfl, hab⟩ := List.append_inj' he rfl
        cases hab
        right
        rw [if_pos ((fits_iff (by omega) size p ho' _).2 h3)]
        exact (hnew _ g).2 ⟨rfl, h2⟩
      · exact .inl ⟨p, a, hp, rfl, h2, h3⟩

/-- C144: so as long as at no time more stamps are open than the size, exactly the sets that are complete are handled. -/
theorem C144_all_partial (size : Nat) (hn : 0 < n) (h : List (Arrival n M)) (ho : InOrder h) (hv : NeverOver size h)
    (t : Int) (g : Fin n → M) : (t, g) ∈ (after size h).calls ↔ ∀ i, (⟨i, t, g i⟩ : Arrival n M) ∈ h :=
  (after_exact hn size h ho (.inr hv)).calls t g

/-- Seven messages cannot open more than ten stamps. -/
example : NeverOver 10 pairs := by
  intro p hp ts hts hopen
  have hsub : ts ⊆ p.map Arrival.stamp := by
    intro t ht
    obtain ⟨⟨i, m, hm⟩, _⟩ := hopen t ht
    exact List.mem_map.2 ⟨_, hm, rfl⟩
  have h1 := (hts.subperm hsub).length_le
  rw [List.length_map] at h1
  have h2 := hp.length_le
  have h3 : pairs.length = 7 := by decide
  omega

example : (20, fun i => if i = 0 then 101 else 201) ∈ (after 10 pairs).calls := by decide +kernel

/-- C144 for topics with one message per state, as all those synchronised in the code: if no input is ever more than `size` messages
ahead of another, the calls are those of the states for which all inputs have come in, from the first on, each once and in
order. -/
theorem C144_states_partial (T : Nat → Int) (hT : StrictMono T) (size : Nat) (h : List (Arrival n M)) (hp : PerState T h)
    (hb : Balanced size h) (m : Nat) (hm : ∀ i, m ≤ (stamps h i).length) (hm' : ∃ i, (stamps h i).length = m) :
    (after size h).calls.map Prod.fst = (List.range m).map T := by
  obtain ⟨j, hj⟩ := hm'
  have hn : 0 < n := j.pos
  have ho := perState_inOrder hT hp
  have hall := C144_all_partial size hn h ho (balanced_neverOver hT hp hb)
  refine List.Pairwise.eq_of_mem_iff (r := (· < ·)) ?_ ?_ ?_
  · rw [List.pairwise_map]
    exact C144_increasing size h ho
  · rw [List.pairwise_map]
    exact List.pairwise_lt_range.imp fun hlt => hT hlt
  · intro t
    have h1 : t ∈ (after size h).calls.map Prod.fst ↔ AllIn h t := by
      rw [List.mem_map]
      constructor
      · rintro ⟨⟨t', g⟩, hc, rfl⟩ i
        exact ⟨g i, (hall _ g).1 hc i⟩
      · intro ha
        choose g hg using ha
        exact ⟨(t, g), (hall t g).2 hg, rfl⟩
    rw [h1, allIn_iff hT hn hp, List.mem_map]
    constructor
    · rintro ⟨k, hk, rfl⟩
      exact ⟨k, List.mem_range.2 (by have := hk j; omega), rfl⟩
    · rintro ⟨k, hk, rfl⟩
      exact ⟨k, fun i => lt_of_lt_of_le (List.mem_range.1 hk) (hm i), rfl⟩

/-- Clouds and transforms of three states; the transform of the second state comes first, the third one is still missing. -/
def perState : List (Arrival 2 Nat) := [⟨0, 0, 100⟩, ⟨1, 0, 200⟩, ⟨1, 5, 201⟩, ⟨0, 5, 101⟩, ⟨0, 10, 102⟩]

example : StrictMono (fun k : Nat => 5 * (k : Int)) ∧ PerState (fun k : Nat => 5 * (k : Int)) perState ∧ Balanced 10 perState ∧
    (after 10 perState).calls.map Prod.fst = [0, 5] := by
  refine ⟨fun a b hab => by dsimp only; omega, by unfold PerState; decide +kernel, ?_, by decide +kernel⟩
  have : ∀ p ∈ perState.inits, ∀ i j : Fin 2, (stamps p i).length ≤ (stamps p j).length + 10 := by decide +kernel
  exact fun p hp => this p ((List.mem_inits _ _).2 hp)

/-- Eleven clouds whose transforms are late. -/
def backlog : List (Arrival 2 Nat) :=
  (List.range 11).map (fun k => ⟨0, k, k⟩) ++ (List.range 11).map (fun k => ⟨1, k, 100 + k⟩)

/-- C144 fails when eleven messages of one input come before the first of the other: although both inputs are in order and complete,
the first pair is never handled. All synchronisers of the code have size 10. -/
theorem C144_fails_backlog : InOrder backlog ∧ AllIn backlog 0 ∧ ∀ g, ((0 : Int), g) ∉ (after 10 backlog).calls := by
  refine ⟨by unfold InOrder backlog; decide +kernel, ?_, ?_⟩
  · intro i
    match i with
    | 0 => exact ⟨0, by decide +kernel⟩
    | 1 => exact ⟨100, by decide +kernel⟩
  · intro g hm
    have : (0 : Int) ∉ (after 10 backlog).calls.map Prod.fst := by decide +kernel
    exact this (List.mem_map.2 ⟨_, hm, rfl⟩)

end Sync

end Serpent
