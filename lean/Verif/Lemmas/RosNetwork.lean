import Verif.Model.RosNetwork
import Mathlib.Data.List.Nodup
import Mathlib.Order.Nat
import Mathlib.Tactic.Common

/-!
# Invariants of the network
-/

namespace Serpent

namespace Ros

variable {S C : Type}

/-- `B` is what `g` makes of the first messages of `A`. -/
def Made (g : Nat → C → Outcome C) (A B : List C) : Prop :=
  B.length ≤ A.length ∧ ∀ i (a b : C), A[i]? = some a → B[i]? = some b → g i a = .ok b

theorem Made.nil (g : Nat → C → Outcome C) (A : List C) : Made g A [] := ⟨Nat.zero_le _, fun i a b _ h => by simp at h⟩

theorem Made.refl (A : List C) : Made (fun _ c => .ok c) A A :=
  ⟨le_rfl, fun i a b h1 h2 => by rw [h1] at h2; rw [Option.some.inj h2]⟩

theorem Made.input {g : Nat → C → Outcome C} {A B : List C} (h : Made g A B) (m : C) : Made g (A ++ [m]) B := by
  refine ⟨by rw [List.length_append]; exact h.1.trans (Nat.le_add_right _ _), fun i a b h1 h2 => h.2 i a b ?_ h2⟩
  have hi : i < B.length := (List.getElem?_eq_some_iff.1 h2).1
  rwa [List.getElem?_append_left (hi.trans_le h.1)] at h1

theorem Made.output {g : Nat → C → Outcome C} {A B : List C} (h : Made g A B) {m r : C} (hm : A[B.length]? = some m)
    (hr : g B.length m = .ok r) : Made g A (B ++ [r]) := by
  have hl : B.length < A.length := (List.getElem?_eq_some_iff.1 hm).1
  refine ⟨by rw [List.length_append]; exact hl, fun i a b h1 h2 => ?_⟩
  by_cases hi : i < B.length
  · rw [List.getElem?_append_left hi] at h2
    exact h.2 i a b h1 h2
  · have : i = B.length := by
      have := (List.getElem?_eq_some_iff.1 h2).1
      simp at this
      omega
    subst this
    rw [hm] at h1
    rw [List.getElem?_concat_length] at h2
    rw [← Option.some.inj h1, ← Option.some.inj h2]
    exact hr

theorem Made.comp {g h : Nat → C → Outcome C} {A B D : List C} (h1 : Made g A B) (h2 : Made h B D) :
    Made (fun i c => g i c >>= h i) A D := by
  refine ⟨h2.1.trans h1.1, fun i a d ha hd => ?_⟩
  have hi : i < B.length := (List.getElem?_eq_some_iff.1 hd).1.trans_le h2.1
  have hb : B[i]? = some B[i] := List.getElem?_eq_getElem hi
  show g i a >>= h i = _
  rw [h1.2 i a _ ha hb, Outcome.bind_ok]
  exact h2.2 i _ d hb hd

/-- How the topics are connected: no two subscriptions publish on the same topic, and none publishes on the input topic. -/
structure Wired (links : List (Link S)) (input : String) : Prop where
  outputs : (links.map Link.output).Nodup
  input : ∀ l ∈ links, l.output ≠ input

/-- Invariant. -/
structure Inv (links : List (Link S)) (callback : S → Nat → C → Outcome C) (s : Net C) : Prop where
  made : ∀ l ∈ links, Made (callback l.stage) (s.on l.input) (s.on l.output)
  queue : s.alive = true → ∀ k l, links[k]? = some l → s.queue k = (s.on l.input).drop (s.calls k) ∧ s.calls k = (s.on l.output).length

theorem on_init (t : String) : (Net.init : Net C).on t = [] := rfl

theorem on_publish (links : List (Link S)) (topic : String) (m : C) (s : Net C) (t : String) :
    (s.publish links topic m).on t = if topic = t then s.on t ++ [m] else s.on t := by
  unfold Net.on Net.publish
  rw [List.filterMap_append]
  by_cases h : topic = t
  · rw [if_pos h]; simp [h]
  · rw [if_neg h]; simp [h]

variable {links : List (Link S)} {callback : S → Nat → C → Outcome C} {input : String}

theorem Inv.init : Inv links callback Net.init :=
  ⟨fun _ _ => Made.nil _ _, fun _ _ _ _ => ⟨rfl, rfl⟩⟩

theorem Inv.arrive (hw : Wired links input) {s : Net C} (h : Inv links callback s) (m : C) :
    Inv links callback (s.publish links input m) := by
  constructor
  · intro l hl
    have hne : ¬ input = l.output := fun e => hw.input l hl e.symm
    rw [on_publish, on_publish, if_neg hne]
    split
    · exact (h.made l hl).input m
    · exact h.made l hl
  · intro ha k l hk
    obtain ⟨q, c⟩ := h.queue ha k l hk
    have hne : ¬ input = l.output := fun e => hw.input l (List.mem_of_getElem? hk) e.symm
    rw [on_publish, on_publish, if_neg hne]
    have hq : (s.publish links input m).queue k = if l.input = input then s.queue k ++ [m] else s.queue k := by
      show (match links[k]? with
        | none => s.queue k
        | some l => if l.input = input then s.queue k ++ [m] else s.queue k) = _
      rw [hk]
    have hle := (h.made l (List.mem_of_getElem? hk)).1
    refine ⟨?_, c⟩
    rw [hq]
    show _ = List.drop (s.calls k) _
    by_cases e : l.input = input
    · rw [if_pos e, if_pos e.symm, q, List.drop_append_of_le_length (by rw [c]; exact hle)]
    · rw [if_neg e, if_neg (fun x => e x.symm), q]

theorem Inv.serve (hw : Wired links input) {s : Net C} (h : Inv links callback s) (ha : s.alive = true) (k : Nat) :
    Inv links callback (s.serve links callback k) := by
  unfold Net.serve
  cases hk : links[k]? with
  | none => exact h
  | some l =>
    cases hq : s.queue k with
    | nil => exact h
    | cons m rest =>
      have hl : l ∈ links := List.mem_of_getElem? hk
      obtain ⟨q, c⟩ := h.queue ha k l hk
      rw [q] at hq
      have hm : (s.on l.input)[(s.on l.output).length]? = some m := by
        rw [← c]
        have := congrArg (fun x => x[0]?) hq
        simpa using this
      have hrest : rest = (s.on l.input).drop (s.calls k + 1) := by
        have := congrArg List.tail hq
        rw [List.tail_drop] at this
        exact this.symm
      dsimp only
      cases e : callback l.stage (s.calls k) m with
      | throws => exact ⟨h.made, fun x => by cases x⟩
      | ub => exact ⟨h.made, fun x => by cases x⟩
      | ok r =>
        dsimp only
        have ho : ∀ t, (Net.publish links l.output r { s with
            queue := fun j => if j = k then rest else s.queue j
            calls := fun j => if j = k then s.calls j + 1 else s.calls j }).on t =
            if l.output = t then s.on t ++ [r] else s.on t := fun t => on_publish _ _ _ _ _
        have out : ∀ {j l'}, links[j]? = some l' → l'.output = l.output → j = k := by
          intro j l' hj he
          have h1 : (links.map Link.output)[j]? = some l.output := by rw [List.getElem?_map, hj, ← he]; rfl
          have h2 : (links.map Link.output)[k]? = some l.output := by rw [List.getElem?_map, hk]; rfl
          have hj' := (List.getElem?_eq_some_iff.1 h1).1
          exact (List.getElem?_inj hj' hw.outputs).1 (h1.trans h2.symm)
        constructor
        · intro l' hl'
          rw [ho, ho]
          obtain ⟨j, hj⟩ := List.getElem?_of_mem hl'
          by_cases e1 : l.output = l'.output
          · have : j = k := out hj e1.symm
            subst this
            have : l' = l := by rw [hj] at hk; exact Option.some.inj hk
            subst this
            have made := (h.made l' hl').output hm (by rw [← c]; exact e)
            rw [if_pos rfl]
            split
            · exact made.input r
            · exact made
          · rw [if_neg e1]
            split
            · exact (h.made l' hl').input r
            · exact h.made l' hl'
        · intro _ j l' hj
          rw [ho, ho]
          obtain ⟨q', c'⟩ := h.queue ha j l' hj
          have hle := (h.made l' (List.mem_of_getElem? hj)).1
          show (match links[j]? with
            | none => if j = k then rest else s.queue j
            | some x => if x.input = l.output then (if j = k then rest else s.queue j) ++ [r] else
                if j = k then rest else s.queue j) = List.drop (if j = k then s.calls j + 1 else s.calls j) _ ∧
            (if j = k then s.calls j + 1 else s.calls j) = _
          rw [hj]
          dsimp only
          by_cases ejk : j = k
          · subst ejk
            have : l' = l := by rw [hj] at hk; exact Option.some.inj hk
            subst this
            rw [if_pos rfl, if_pos rfl, if_pos rfl]
            refine ⟨?_, by rw [c]; simp⟩
            have hlt : s.calls j + 1 ≤ (s.on l'.input).length := by
              rw [c]
              exact (List.getElem?_eq_some_iff.1 hm).1
            by_cases e2 : l'.input = l'.output
            · rw [if_pos e2, if_pos e2.symm, hrest, List.drop_append_of_le_length hlt]
            · rw [if_neg e2, if_neg (fun x => e2 x.symm), hrest]
          · rw [if_neg ejk, if_neg ejk]
            have hne : l.output ≠ l'.output := fun x => ejk (out hj x.symm)
            rw [if_neg hne]
            refine ⟨?_, c'⟩
            by_cases e2 : l'.input = l.output
            · rw [if_pos e2, if_pos e2.symm, q', List.drop_append_of_le_length (by rw [c']; exact hle)]
            · rw [if_neg e2, if_neg (fun x => e2 x.symm), q']

theorem Inv.run (hw : Wired links input) (events : List (Event C)) :
    Inv links callback (Net.run links callback input events) := by
  unfold Net.run
  suffices ∀ s, Inv links callback s → Inv links callback (events.foldl (Net.step links callback input) s) from this _ Inv.init
  induction events with
  | nil => exact fun s h => h
  | cons e es ih =>
    intro s h
    apply ih
    cases e with
    | arrive m =>
      show Inv links callback (if s.alive then _ else s)
      split
      · exact h.arrive hw m
      · exact h
    | serve k =>
      show Inv links callback (if s.alive then _ else s)
      split
      · exact h.serve hw ‹_› k
      · exact h

/-- The links are one path from the topic `a` to the topic `b`. -/
inductive Path : List (Link S) → String → String → Prop
  | nil (a : String) : Path [] a a
  | cons {l : Link S} {ls : List (Link S)} {b : String} : Path ls l.output b → Path (l :: ls) l.input b

/-- All callbacks one after the other. -/
def through (callback : S → Nat → C → Outcome C) (stages : List S) (i : Nat) (c : C) : Outcome C :=
  stages.foldlM (fun c s => callback s i c) c

theorem Made.path {s : Net C} (h : ∀ l ∈ links, Made (callback l.stage) (s.on l.input) (s.on l.output)) {a b : String}
    (hp : Path links a b) : Made (through callback (links.map Link.stage)) (s.on a) (s.on b) := by
  induction hp with
  | nil a => exact Made.refl _
  | @cons l ls b _ ih =>
    have h1 := h l (by simp)
    have h2 := ih (fun l' hl' => h l' (by simp [hl']))
    exact h1.comp h2

theorem Made.idle {s : Net C} (h : Inv links callback s) (ha : s.alive = true) (hi : s.Idle links) {a b : String}
    (ls : List (Link S)) (hs : ∀ l ∈ ls, l ∈ links) (hp' : Path ls a b) :
    (s.on b).length = (s.on a).length := by
  induction hp' with
  | nil a => rfl
  | @cons l ls b _ ih =>
    have hl := hs l (by simp)
    obtain ⟨k, hk⟩ := List.getElem?_of_mem hl
    obtain ⟨q, c⟩ := h.queue ha k l hk
    rw [hi k (List.getElem?_eq_some_iff.1 hk).1, c] at q
    have h1 := (h.made l hl).1
    have h2 : (s.on l.input).length ≤ (s.on l.output).length := List.drop_eq_nil_iff.1 q.symm
    rw [ih (fun x hx => hs x (by simp [hx]))]
    exact le_antisymm h1 h2

end Ros

end Serpent
