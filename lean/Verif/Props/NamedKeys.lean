import Verif.Lemmas.GraphFrame
import Verif.Spec.Graph

/-!
# C01, C02, C12: named keys, minimum key, timestamps
-/

namespace Serpent

namespace Graph

open M

variable {Val D : Type}

/-! ## Lemmas -/

theorem named_invariant {er : EndRead} {log : Log Val D} {s : GM Val D} (h : Reaches er log s) :
    s.keys.Sorted ∧ ∀ name, s.keys.find name = specNamed name log.reverse := by
  induction h with
  | init => exact ⟨OMap.sorted_nil, fun _ => rfl⟩
  | @step log s s' op r _ hs ih =>
    obtain ⟨h1, h2⟩ := ih
    have other : (∀ n k p, op ≠ .setNamedKey n k p) → (∀ n, op ≠ .increment n) → s'.keys = s.keys := by
      intro hk hi
      exact step_keeps (P := fun t => t.keys = s.keys) hs rfl (fun n k p e => absurd e (hk n k p))
        (fun n e => absurd e (hi n)) (fun _ _ _ => rfl) (fun _ => rfl) (fun _ _ => rfl)
        (fun _ _ _ _ h => h) (fun _ _ _ h => h) (fun _ _ _ _ h => h)
    rw [List.reverse_append]
    cases op with
    | setNamedKey n k p =>
      rw [step_state hs]
      simp only [stateAfter, setNamedKey, modify_run]
      constructor
      · split
        · exact OMap.sorted_emplace h1 _ _
        · exact OMap.sorted_assign h1 _ _
      · intro name
        simp only [List.reverse_cons, List.reverse_nil, List.nil_append, List.cons_append, specNamed]
        rw [← h2 name]
        split
        · rename_i hn
          rw [OMap.find_emplace h1, hn]
          by_cases e : name = n
          · simp [e]
          · simp [e, Ne.symm e]
        · rw [OMap.find_assign h1]
          by_cases e : name = n
          · simp [e]
          · simp [e, Ne.symm e]
    | increment n =>
      rw [step_state hs]
      simp only [stateAfter, increment]
      constructor
      · split
        · exact OMap.sorted_assign h1 _ _
        · exact h1
      · intro name
        simp only [List.reverse_cons, List.reverse_nil, List.nil_append, List.cons_append, specNamed]
        rw [← h2 name]
        split
        · rename_i k p hn
          dsimp only
          rw [OMap.find_assign h1]
          by_cases e : name = n
          · subst e; simp [hn]
          · simp [e, Ne.symm e]
        · rename_i hn
          by_cases e : n = name
          · subst e; simp [hn]
          · simp [e]
    | _ =>
      rw [other (by intros; simp) (by intros; simp)]
      exact ⟨h1, fun name => by simp [specNamed, h2 name]⟩

theorem time_invariant {er : EndRead} {log : Log Val D} {s : GM Val D} (h : Reaches er log s) :
    s.timestamps.Sorted ∧ ∀ k, s.timestamps.find k = specTime k log.reverse := by
  induction h with
  | init => exact ⟨OMap.sorted_nil, fun _ => rfl⟩
  | @step log s s' op r _ hs ih =>
    obtain ⟨h1, h2⟩ := ih
    have other : (∀ k t, op ≠ .setTimestamp k t) → s'.timestamps = s.timestamps := by
      intro ht
      refine step_keeps (P := fun t => t.timestamps = s.timestamps) hs rfl ?_ ?_ (fun k t e => absurd e (ht k t))
        (fun _ => rfl) (fun _ _ => rfl) (fun _ _ _ _ h => h) (fun _ _ _ h => h) (fun _ _ _ _ h => h)
      · intro n k p _
        simp only [setNamedKey, modify_run]
        split <;> rfl
      · intro n _
        simp only [increment]
        split <;> rfl
    rw [List.reverse_append]
    cases op with
    | setTimestamp k t =>
      rw [step_state hs]
      simp only [stateAfter, setTimestamp, modify_run]
      refine ⟨OMap.sorted_assign (OMap.sorted_emplace h1 _ _) _ _, fun k' => ?_⟩
      rw [OMap.find_assign (OMap.sorted_emplace h1 _ _), OMap.find_emplace h1]
      simp only [List.reverse_cons, List.reverse_nil, List.nil_append, List.cons_append, specTime]
      rw [← h2 k']
      by_cases e : k' = k
      · simp [e]
      · simp [e, Ne.symm e]
    | _ =>
      rw [other (by intros; simp)]
      exact ⟨h1, fun k => by simp [specTime, h2 k]⟩

theorem minLoop_spec (p : Nat) (l : List (String × (Int × Nat))) (acc : Option Int) :
    (minLoop p l acc = none ↔ acc = none ∧ ∀ e ∈ l, p < e.2.2) ∧
    ∀ m, minLoop p l acc = some m →
      (acc = some m ∨ ∃ e ∈ l, e.2.2 ≤ p ∧ e.2.1 = m) ∧ (∀ a, acc = some a → m ≤ a) ∧
      ∀ e ∈ l, e.2.2 ≤ p → m ≤ e.2.1 := by
  induction l generalizing acc with
  | nil => simp [minLoop]; intro m h; subst h; simp
  | cons e l ih =>
    obtain ⟨n, k, pr⟩ := e
    simp only [minLoop]
    split
    · rename_i hp
      obtain ⟨i1, i2⟩ := ih (some (minAcc acc k))
      constructor
      · rw [i1]; simp; intro _; omega
      · intro m hm
        obtain ⟨j1, j2, j3⟩ := i2 m hm
        have hle := j2 _ rfl
        unfold minAcc at j1 hle
        refine ⟨?_, ?_, ?_⟩
        · rcases j1 with j1 | ⟨e, he, h⟩
          · cases acc with
            | none =>
              right; simp at j1
              exact ⟨(n, k, pr), List.mem_cons_self, hp, j1⟩
            | some a =>
              simp at j1
              rcases le_total a k with hak | hak
              · left; rw [← j1]; simp [hak]
              · right; exact ⟨(n, k, pr), List.mem_cons_self, hp, by simp; omega⟩
          · right; exact ⟨e, List.mem_cons_of_mem _ he, h⟩
        · intro a ha; subst ha; simp at hle; exact hle.1
        · intro e he hep
          rcases List.mem_cons.1 he with rfl | he
          · cases acc with
            | none => simpa using hle
            | some a => simp at hle; exact hle.2
          · exact j3 e he hep
    · rename_i hp
      obtain ⟨i1, i2⟩ := ih acc
      constructor
      · rw [i1]
        simp only [List.mem_cons, forall_eq_or_imp]
        constructor
        · rintro ⟨a, b⟩; exact ⟨a, by omega, b⟩
        · rintro ⟨a, _, b⟩; exact ⟨a, b⟩
      · intro m hm
        obtain ⟨j1, j2, j3⟩ := i2 m hm
        refine ⟨?_, j2, ?_⟩
        · rcases j1 with j1 | ⟨e, he, h⟩
          · exact Or.inl j1
          · exact Or.inr ⟨e, List.mem_cons_of_mem _ he, h⟩
        · intro e he hep
          rcases List.mem_cons.1 he with rfl | he
          · exact absurd hep hp
          · exact j3 e he hep

/-! ## Theorems -/

/-- **C01.** After any history, `key(name, offset)` and `priority(name)` are what the history of `set_named_key` and
`increment` calls of that name says; a name never set throws. -/
theorem C01_named_keys {er : EndRead} {log : Log Val D} {s : GM Val D} (h : Reaches er log s)
    (name : String) (offset : Int) :
    match specNamed name log.reverse with
    | some (k, p) => key s name offset = .ok (k + offset) ∧ priority s name = .ok p
    | none => key s name offset = .throws ∧ priority s name = .throws := by
  rw [← (named_invariant h).2 name]
  unfold key priority
  split <;> rename_i hn <;> simp [hn]

/-- **C01.** Incrementing a name that was never set throws and changes nothing. -/
theorem C01_increment_unset {er : EndRead} {log : Log Val D} {s : GM Val D} (h : Reaches er log s) (name : String)
    (hn : specNamed name log.reverse = none) : step er (.increment name) s = some (.threw, s) := by
  rw [← (named_invariant h).2 name] at hn
  simp [step, increment, hn, respOf]

/-- **C01.** Incrementing a name that was set succeeds. -/
theorem C01_increment_set {er : EndRead} {log : Log Val D} {s : GM Val D} (h : Reaches er log s) (name : String)
    (hn : specNamed name log.reverse ≠ none) : ∃ s', step er (.increment name) s = some (.done, s') := by
  rw [← (named_invariant h).2 name] at hn
  simp only [step, increment]
  split
  · exact ⟨_, rfl⟩
  · contradiction

/-- **C02.** `minimum_key(p)` throws exactly when no named key has priority `≤ p`. -/
theorem C02_minimum_key_throws {er : EndRead} {log : Log Val D} {s : GM Val D} (h : Reaches er log s) (p : Nat) :
    minimumKey s p = .throws ↔ ∀ name q, priority s name = .ok q → p < q := by
  have hs := (named_invariant h).1
  unfold minimumKey
  have hl := (minLoop_spec p s.keys none).1
  constructor
  · intro hm name q hq
    have hnone : minLoop p s.keys none = none := by
      revert hm; cases minLoop p s.keys none <;> simp
    unfold priority at hq
    split at hq
    · rename_i k p' hf
      simp at hq; subst hq
      exact (hl.1 hnone).2 _ (OMap.mem_of_find hf)
    · simp at hq
  · intro hall
    have : minLoop p s.keys none = none := by
      rw [hl]
      refine ⟨rfl, fun e he => hall e.1 e.2.2 ?_⟩
      simp [priority, OMap.find_of_mem hs he]
    simp [this]

/-- **C02.** Otherwise it returns the key of a named key with priority `≤ p`, and none with priority `≤ p` has a smaller
key. -/
theorem C02_minimum_key_least {er : EndRead} {log : Log Val D} {s : GM Val D} (h : Reaches er log s) (p : Nat)
    (hn : minimumKey s p ≠ .throws) :
    ∃ m, minimumKey s p = .ok m ∧
      (∃ name q, priority s name = .ok q ∧ q ≤ p ∧ key s name 0 = .ok m) ∧
      ∀ name q k, priority s name = .ok q → q ≤ p → key s name 0 = .ok k → m ≤ k := by
  have hs := (named_invariant h).1
  unfold minimumKey at *
  have hl := (minLoop_spec p s.keys none).2
  cases hm : minLoop p s.keys none with
  | none => simp [hm] at hn
  | some m =>
    obtain ⟨h1, -, h3⟩ := hl m hm
    refine ⟨m, rfl, ?_, ?_⟩
    · rcases h1 with h1 | ⟨e, he, hp, hk⟩
      · simp at h1
      · refine ⟨e.1, e.2.2, ?_, hp, ?_⟩
        · simp [priority, OMap.find_of_mem hs he]
        · simp [key, OMap.find_of_mem hs he, hk]
    · intro name q k hq hqp hk
      unfold priority at hq
      unfold key at hk
      split at hq
      · rename_i k' p' hf
        simp [hf] at hk hq
        subst hq hk
        exact h3 _ (OMap.mem_of_find hf) hqp
      · simp at hq

/-- **C12.** `timestamp(k)` is the timestamp last set for `k`; it throws iff none was set. -/
theorem C12_timestamp {er : EndRead} {log : Log Val D} {s : GM Val D} (h : Reaches er log s) (k : Int) :
    timestamp s k = (match specTime k log.reverse with | some t => .ok t | none => .throws) := by
  rw [← (time_invariant h).2 k]
  rfl

/-- **C12.** `time_between(a, b)` is the difference of the timestamps last set. -/
theorem C12_time_between {er : EndRead} {log : Log Val D} {s : GM Val D} (h : Reaches er log s) (a b : Int) :
    timeBetween s a b =
      (match specTime a log.reverse, specTime b log.reverse with
        | some ta, some tb => .ok (tb - ta)
        | _, _ => .throws) := by
  unfold timeBetween
  rw [C12_timestamp h, C12_timestamp h]
  cases specTime a log.reverse <;> cases specTime b log.reverse <;> rfl

/-- **C12.** Durations are antisymmetric. -/
theorem C12_antisymmetric (s : GM Val D) (a b : Int) (d : Int) (h : timeBetween s a b = .ok d) :
    timeBetween s b a = .ok (-d) := by
  unfold timeBetween at *
  cases ha : timestamp s a <;> cases hb : timestamp s b <;> simp [ha, hb] at *
  omega

/-- **C12.** The duration from a key to itself is zero. -/
theorem C12_self (s : GM Val D) (a : Int) (d : Int) (h : timeBetween s a a = .ok d) : d = 0 := by
  unfold timeBetween at *
  cases ha : timestamp s a <;> simp [ha] at *
  omega

/-- **C12.** Durations add up. -/
theorem C12_additive (s : GM Val D) (a b c : Int) (d e : Int) (h : timeBetween s a b = .ok d)
    (h' : timeBetween s b c = .ok e) : timeBetween s a c = .ok (d + e) := by
  unfold timeBetween at *
  cases ha : timestamp s a <;> cases hb : timestamp s b <;> cases hc : timestamp s c <;> simp [ha, hb, hc] at *
  omega

/-! ## The hypotheses are met -/

/-- The history of the optimisation node's set-up: three priorities, increments and overwriting. -/
def demoNamed : List (Op Nat Nat) :=
  [.setNamedKey "imu" 0 0, .setNamedKey "barometer" (-4) 1, .increment "imu", .increment "missing",
   .setNamedKey "stereo" (-1) 0, .increment "stereo", .setTimestamp 0 10, .setTimestamp 1 25, .setTimestamp 1 30]

/-- Observations at the end of the history. -/
def demoNamedResult : Outcome Int × Outcome Int × Outcome Int × Option (Int × Nat) × Option (Int × Nat) ×
    Outcome Int × Outcome Int :=
  match run .nodeCount demoNamed ([], {}) with
  | some (log, s) => (key s "imu" 2, minimumKey s 0, minimumKey s 1, specNamed "stereo" log.reverse,
      specNamed "missing" log.reverse, timeBetween s 0 1, timeBetween s 0 7)
  | none => (.ub, .ub, .ub, none, none, .ub, .ub)

example : demoNamedResult = (.ok 3, .ok 0, .ok (-4), some (0, 0), none, .ok 20, .throws) := by rfl

example : ∃ log s, Reaches (Val := Nat) (D := Nat) .nodeCount log s ∧ specNamed "imu" log.reverse = some (1, 0) ∧
    minimumKey s 0 ≠ .throws := by
  exact ⟨_, _, reaches_get (ops := demoNamed) (by decide), by decide, by decide⟩

end Graph

end Serpent
