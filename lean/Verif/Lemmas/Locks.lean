import Verif.Model.Locks
import Mathlib.Data.List.Nodup
import Mathlib.Tactic.Push

/-!
# Helper lemmas: the mutex discipline of the callbacks
-/

namespace Serpent

namespace Locks

/-- The order in which mutexes are acquired: `preintegration_mutex` before `imu_data_mutex`; the others alone. -/
def rank : Mutex → Nat
  | .imuData => 1
  | _ => 0

/-- What protects a member. -/
inductive Guard where
  | mutex (m : Mutex)
  | only (c : Callback)

/-- The protection of every member, frontend.hpp:166-174 and the callbacks. -/
def guardOf : Var → Guard
  | .imuBuffer => .mutex .imuData
  | .lastPreint | .preintegrated | .worldState | .biases | .params => .mutex .preintegration
  | .stereoBuffer => .mutex .stereoData
  | .barometer => .mutex .barometerData
  | .previousPointcloud | .previousStateTime | .initialised => .only .pointcloud
  | .graph => .mutex .graph
  | .queues => .mutex .s2s
  | .scan => .only .s2s
  | .refinement => .only .s2m
  | .map => .mutex .map

/-- The results of the optimisation: the members the pointcloud callback reads without a mutex (frontend.cpp:453-454), and that only
the optimised odometry callback writes. -/
def optimised : Var → Bool
  | .worldState | .biases | .params => true
  | _ => false

/-- A callback that holds `held` may read a member. -/
def mayRead (c : Callback) (held : List Mutex) (v : Var) : Bool :=
  match guardOf v with
  | .mutex m => held.contains m || (optimised v && decide (c = .pointcloud))
  | .only c' => decide (c = c')

/-- A callback that holds `held` may write a member. -/
def mayWrite (c : Callback) (held : List Mutex) (v : Var) : Bool :=
  match guardOf v with
  | .mutex m => held.contains m && (!optimised v || decide (c = .odometry))
  | .only c' => decide (c = c')

/-- Follows the mutexes held through a sequence of operations (`none`: against the discipline). -/
def check (c : Callback) : List Mutex → List Op → Option (List Mutex)
  | held, [] => some held
  | held, .lock m :: r => if held.all (fun h => decide (rank h < rank m)) then check c (m :: held) r else none
  | held, .unlock m :: r => if held.contains m then check c (held.erase m) r else none
  | held, .sleep :: r => if held.isEmpty then check c held r else none
  | held, .read v :: r => if mayRead c held v then check c held r else none
  | held, .write v :: r => if mayWrite c held v then check c held r else none

theorem check_append (c : Callback) (a b : List Op) (held : List Mutex) :
    check c held (a ++ b) = (check c held a).bind fun h => check c h b := by
  induction a generalizing held with
  | nil => rfl
  | cons o a ih =>
    cases o <;> simp only [List.cons_append, check] <;> split <;> first | exact ih _ | rfl

theorem check_rounds (c : Callback) (m : Mutex) (cond : List Op) (n : Nat) (hc : check c [m] cond = some [m]) :
    check c [m] (rounds m cond n) = some [m] := by
  induction n with
  | zero => rfl
  | succ n ih =>
    unfold rounds
    rw [check_append, check_append, hc]
    show (check c [m] [.unlock m, .sleep, .lock m]).bind _ = _
    have : check c [m] [.unlock m, .sleep, .lock m] = some [m] := by simp [check]
    rw [this]
    exact ih

/-- A wait within a mutex. -/
theorem check_sleep_locked (c : Callback) (m : Mutex) (cond : List Op) (n : Nat) (hc : check c [m] cond = some [m]) (last : Bool) :
    check c [m] (protectedSleep m true true cond n last) = some [m] := by
  unfold protectedSleep
  rw [check_append, check_append, check_append]
  simp only [if_true, check, Option.bind_some]
  rw [check_rounds c m cond n hc]
  cases last
  · rfl
  · show (check c [m] cond).bind _ = _
    rw [hc]; rfl

/-- A wait that locks and unlocks. -/
theorem check_sleep_unlocked (c : Callback) (m : Mutex) (cond : List Op) (n : Nat) (hc : check c [m] cond = some [m]) (last : Bool) :
    check c [] (protectedSleep m false false cond n last) = some [] := by
  unfold protectedSleep
  rw [check_append, check_append, check_append]
  have h1 : check c [] (if false = true then [] else [Op.lock m]) = some [m] := by simp [check]
  rw [h1, Option.bind_some, check_rounds c m cond n hc, Option.bind_some]
  have h2 : check c [m] (if last = true then cond else []) = some [m] := by
    cases last
    · rfl
    · exact hc
  rw [h2, Option.bind_some]
  simp [check]

/-- A wait that locks only. -/
theorem check_sleep_lock (c : Callback) (m : Mutex) (cond : List Op) (n : Nat) (hc : check c [m] cond = some [m]) (last : Bool) :
    check c [] (protectedSleep m false true cond n last) = some [m] := by
  unfold protectedSleep
  rw [check_append, check_append, check_append]
  have h1 : check c [] (if false = true then [] else [Op.lock m]) = some [m] := by simp [check]
  rw [h1, Option.bind_some, check_rounds c m cond n hc, Option.bind_some]
  have h2 : check c [m] (if last = true then cond else []) = some [m] := by
    cases last
    · rfl
    · exact hc
  rw [h2, Option.bind_some]
  rfl

theorem check_featureRounds (ns : List Nat) : check .features [.graph] (featureRounds ns) = some [.graph] := by
  induction ns with
  | nil => rfl
  | cons n ns ih =>
    unfold featureRounds
    show check .features [.graph] (protectedSleep .graph true true [.read .graph] n true ++ [.write .graph] ++ featureRounds ns) = _
    rw [check_append, check_append, check_sleep_locked .features .graph _ n rfl]
    exact ih

theorem check_select (e : Bool) (n : Nat) : check .pointcloud [] (select e n) = some [] := by
  unfold select
  cases e
  · rfl
  · rw [if_pos rfl, check_append, check_append]
    show ((check .pointcloud [.stereoData] (protectedSleep .stereoData true true [.write .stereoBuffer] n true)).bind _) = _
    rw [check_sleep_locked .pointcloud .stereoData _ n rfl]
    rfl

theorem check_send (i : Bool) (n : Nat) : check .pointcloud [] (send i n) = some [] := by
  unfold send
  cases i
  · rw [if_neg (by simp), check_append, check_append, check_append]
    show ((check .pointcloud [] (protectedSleep .preintegration false false [.read .lastPreint] n true)).bind _).bind _ = _
    rw [check_sleep_unlocked .pointcloud .preintegration _ n rfl]
    rfl
  · rfl

/-- Every complete run keeps the discipline and releases every mutex. -/
theorem run_check {c : Callback} {ops : List Op} (h : Run c ops) : check c [] ops = some [] := by
  cases h with
  | pointcloud e b i n1 n2 n3 =>
    unfold pointcloud
    rw [check_append, check_append, check_append, check_select, Option.bind_some, check_send, Option.bind_some,
      check_sleep_unlocked .pointcloud .preintegration _ n3 rfl, Option.bind_some]
    cases b <;> rfl
  | pressure n =>
    unfold pressure
    rw [check_append, check_append]
    show (check .pressure [.graph] (protectedSleep .graph true true [.write .graph] n true)).bind _ = _
    rw [check_sleep_locked .pressure .graph _ n rfl]
    rfl
  | imuArray n =>
    unfold imuArray
    rw [check_append, check_append]
    show (check .imuArray [.graph] (protectedSleep .graph true true [.read .graph] n true)).bind _ = _
    rw [check_sleep_locked .imuArray .graph _ n rfl]
    rfl
  | features ns =>
    unfold features
    rw [check_append, check_append]
    show (check .features [.graph] (featureRounds ns)).bind _ = _
    rw [check_featureRounds]
    rfl
  | s2s l e => cases l <;> cases e <;> rfl
  | s2m n =>
    unfold s2m
    rw [check_append, check_sleep_lock .s2m .s2s _ n rfl]
    rfl
  | _ => rfl

/-! ### The invariant -/

theorem set_self {α : Type} (f : Callback → α) (c : Callback) (a : α) : set f c a c = a := if_pos rfl

theorem set_other {α : Type} (f : Callback → α) {c c' : Callback} (a : α) (h : c' ≠ c) : set f c a c' = f c' := if_neg h

theorem mem_all (c : Callback) : c ∈ Callback.all := by cases c <;> decide

/-- The discipline holds for what remains, mutexes are exclusive. -/
structure Inv (s : State) : Prop where
  check : ∀ c, check c (s.held c) (s.todo c) = some []
  nodup : ∀ c, (s.held c).Nodup
  exclusive : ∀ m c c', m ∈ s.held c → m ∈ s.held c' → c = c'

theorem inv_todo {s : State} {c : Callback} {r : List Op} (h : Inv s) (hc : Locks.check c (s.held c) r = some []) :
    Inv { s with todo := set s.todo c r } where
  check := fun c' => by
    by_cases he : c' = c
    · subst he; show Locks.check c' (s.held c') (set s.todo c' r c') = _; rw [set_self]; exact hc
    · show Locks.check c' (s.held c') (set s.todo c r c') = _; rw [set_other _ _ he]; exact h.check c'
  nodup := h.nodup
  exclusive := h.exclusive

theorem free_iff {s : State} {m : Mutex} :
    (Callback.all.all (fun c' => !(s.held c').contains m)) = true ↔ ∀ c', m ∉ s.held c' := by
  rw [List.all_eq_true]
  constructor
  · intro h c' hm
    have := h c' (mem_all c')
    simp [hm] at this
  · intro h c' _
    simpa using h c'

theorem inv_exec {s s' : State} {c : Callback} (h : Inv s) (hs : s.exec c = some s') : Inv s' := by
  have hc := h.check c
  unfold State.exec at hs
  split at hs
  · cases hs
  · rename_i m r ht
    split at hs
    · rename_i hfree
      rw [free_iff] at hfree
      obtain rfl := Option.some.inj hs
      rw [ht, Locks.check] at hc
      split at hc
      · refine ⟨fun c' => ?_, fun c' => ?_, fun m' c1 c2 h1 h2 => ?_⟩
        · by_cases he : c' = c
          · subst he
            show Locks.check c' (set s.held c' (m :: s.held c') c') (set s.todo c' r c') = _
            rw [set_self, set_self]; exact hc
          · show Locks.check c' (set s.held c (m :: s.held c) c') (set s.todo c r c') = _
            rw [set_other _ _ he, set_other _ _ he]; exact h.check c'
        · by_cases he : c' = c
          · subst he
            show (set s.held c' (m :: s.held c') c').Nodup
            rw [set_self]; exact List.nodup_cons.2 ⟨hfree c', h.nodup c'⟩
          · show (set s.held c (m :: s.held c) c').Nodup
            rw [set_other _ _ he]; exact h.nodup c'
        · change m' ∈ set s.held c (m :: s.held c) c1 at h1
          change m' ∈ set s.held c (m :: s.held c) c2 at h2
          by_cases e1 : c1 = c <;> by_cases e2 : c2 = c
          · rw [e1, e2]
          · subst e1
            rw [set_self] at h1
            rw [set_other _ _ e2] at h2
            rcases List.mem_cons.1 h1 with rfl | h1
            · exact absurd h2 (hfree c2)
            · exact h.exclusive m' _ _ h1 h2
          · subst e2
            rw [set_self] at h2
            rw [set_other _ _ e1] at h1
            rcases List.mem_cons.1 h2 with rfl | h2
            · exact absurd h1 (hfree c1)
            · exact h.exclusive m' _ _ h1 h2
          · rw [set_other _ _ e1] at h1
            rw [set_other _ _ e2] at h2
            exact h.exclusive m' _ _ h1 h2
      · cases hc
    · cases hs
  · rename_i m r ht
    split at hs
    · rename_i hm
      obtain rfl := Option.some.inj hs
      rw [ht, Locks.check, if_pos (by simpa using hm)] at hc
      have hsub : ∀ c' m', m' ∈ set s.held c ((s.held c).erase m) c' → m' ∈ s.held c' := by
        intro c' m' h'
        by_cases he : c' = c
        · subst he; rw [set_self] at h'; exact List.mem_of_mem_erase h'
        · rwa [set_other _ _ he] at h'
      refine ⟨fun c' => ?_, fun c' => ?_, fun m' c1 c2 h1 h2 => h.exclusive m' _ _ (hsub _ _ h1) (hsub _ _ h2)⟩
      · by_cases he : c' = c
        · subst he
          show Locks.check c' (set s.held c' ((s.held c').erase m) c') (set s.todo c' r c') = _
          rw [set_self, set_self]; exact hc
        · show Locks.check c' (set s.held c ((s.held c).erase m) c') (set s.todo c r c') = _
          rw [set_other _ _ he, set_other _ _ he]; exact h.check c'
      · by_cases he : c' = c
        · subst he
          show (set s.held c' ((s.held c').erase m) c').Nodup
          rw [set_self]; exact (h.nodup c').erase m
        · show (set s.held c ((s.held c).erase m) c').Nodup
          rw [set_other _ _ he]; exact h.nodup c'
    · cases hs
  · rename_i o r hl hu ht
    obtain rfl := Option.some.inj hs
    refine inv_todo h ?_
    rw [ht] at hc
    cases o with
    | lock m => exact absurd rfl (hl m)
    | unlock m => exact absurd rfl (hu m)
    | read v => rw [Locks.check] at hc; split at hc; exacts [hc, by cases hc]
    | write v => rw [Locks.check] at hc; split at hc; exacts [hc, by cases hc]
    | sleep => rw [Locks.check] at hc; split at hc; exacts [hc, by cases hc]

theorem held_idle {s : State} {c : Callback} (h : Inv s) (ht : s.todo c = []) : s.held c = [] := by
  have hc := h.check c
  rw [ht] at hc
  exact Option.some.inj hc

theorem reach_inv {R : Callback → List Op → Prop} (hR : ∀ c ops, R c ops → check c [] ops = some []) {s : State}
    (h : Reach R s) : Inv s := by
  induction h with
  | idle => exact ⟨fun _ => rfl, fun _ => List.nodup_nil, fun m c c' h => (List.not_mem_nil h).elim⟩
  | start c ops _ ht hr ih =>
    refine inv_todo ih ?_
    rw [held_idle ih ht]
    exact hR c ops hr
  | exec c _ hs ih => exact inv_exec ih hs

/-! ### Progress -/

theorem exec_or_blocked {s : State} {c : Callback} (h : Inv s) (ht : s.todo c ≠ []) :
    (∃ s', s.exec c = some s') ∨ ∃ m r c', s.todo c = .lock m :: r ∧ m ∈ s.held c' := by
  have hc := h.check c
  cases hl : s.todo c with
  | nil => exact absurd hl ht
  | cons o r =>
    cases o with
    | lock m =>
      by_cases hf : ∀ c', m ∉ s.held c'
      · left
        rw [← free_iff] at hf
        exact ⟨_, by unfold State.exec; rw [hl]; exact if_pos hf⟩
      · push Not at hf
        obtain ⟨c', hm⟩ := hf
        exact .inr ⟨m, r, c', rfl, hm⟩
    | unlock m =>
      left
      rw [hl, check] at hc
      split at hc
      · rename_i hm
        exact ⟨_, by unfold State.exec; rw [hl]; exact if_pos (by simpa using hm)⟩
      · cases hc
    | read v => exact .inl ⟨_, by unfold State.exec; rw [hl]⟩
    | write v => exact .inl ⟨_, by unfold State.exec; rw [hl]⟩
    | sleep => exact .inl ⟨_, by unfold State.exec; rw [hl]⟩

/-- The holder of a mutex, or one it waits for, can go on. -/
theorem holder_progress {s : State} (h : Inv s) (k : Nat) : ∀ (m : Mutex) (c : Callback), m ∈ s.held c → 2 ≤ rank m + k →
    ∃ c' s', s.exec c' = some s' := by
  induction k with
  | zero => intro m c _ hk; cases m <;> simp [rank] at hk
  | succ k ih =>
    intro m c hm hk
    have ht : s.todo c ≠ [] := fun ht => by rw [held_idle h ht] at hm; exact List.not_mem_nil hm
    rcases exec_or_blocked h ht with ⟨s', hs⟩ | ⟨m', r, c', hl, hm'⟩
    · exact ⟨c, s', hs⟩
    · have hc := h.check c
      rw [hl, check] at hc
      split at hc
      · rename_i hr
        have := of_decide_eq_true (List.all_eq_true.1 hr m hm)
        exact ih m' c' hm' (by omega)
      · cases hc

theorem progress {s : State} (h : Inv s) (hn : ∃ c, s.todo c ≠ []) : ∃ c s', s.exec c = some s' := by
  obtain ⟨c, ht⟩ := hn
  rcases exec_or_blocked h ht with ⟨s', hs⟩ | ⟨m, r, c', hl, hm⟩
  · exact ⟨c, s', hs⟩
  · exact holder_progress h 2 m c' hm (by omega)

/-- Operations left. -/
def remaining (s : State) : Nat := (Callback.all.map fun c => (s.todo c).length).sum

theorem exec_todo {s s' : State} {c : Callback} (hs : s.exec c = some s') :
    ∃ o r, s.todo c = o :: r ∧ s'.todo = set s.todo c r := by
  unfold State.exec at hs
  split at hs
  · cases hs
  · rename_i m r ht
    split at hs
    · obtain rfl := Option.some.inj hs; exact ⟨_, r, ht, rfl⟩
    · cases hs
  · rename_i m r ht
    split at hs
    · obtain rfl := Option.some.inj hs; exact ⟨_, r, ht, rfl⟩
    · cases hs
  · rename_i o r _ _ ht
    obtain rfl := Option.some.inj hs; exact ⟨_, r, ht, rfl⟩

theorem sum_set (f : Callback → List Op) (c : Callback) (o : Op) (r : List Op) (hf : f c = o :: r) (l : List Callback)
    (hl : l.Nodup) (hc : c ∈ l) :
    (l.map fun c' => (set f c r c').length).sum + 1 = (l.map fun c' => (f c').length).sum := by
  induction l with
  | nil => cases hc
  | cons a l ih =>
    obtain ⟨ha, hl⟩ := List.nodup_cons.1 hl
    rw [List.map_cons, List.map_cons, List.sum_cons, List.sum_cons]
    by_cases he : a = c
    · subst he
      have : l.map (fun c' => (set f a r c').length) = l.map fun c' => (f c').length :=
        List.map_congr_left fun c' hc' => by rw [set_other _ _ (fun h : c' = a => ha (h ▸ hc'))]
      rw [this, set_self, hf, List.length_cons]
      omega
    · rw [set_other _ _ he]
      have := ih hl ((List.mem_cons.1 hc).resolve_left (Ne.symm he))
      omega

theorem remaining_exec {s s' : State} {c : Callback} (hs : s.exec c = some s') : remaining s' + 1 = remaining s := by
  obtain ⟨o, r, ht, ht'⟩ := exec_todo hs
  unfold remaining
  rw [ht']
  exact sum_set s.todo c o r ht _ (by decide) (mem_all c)

theorem finishes_trans {s s' s'' : State} {c : Callback} (hs : s.exec c = some s') (h : Finishes s' s'') : Finishes s s'' := by
  induction h with
  | refl => exact .exec c (.refl s) hs
  | exec c' _ h' ih => exact .exec c' ih h'

theorem finishes {s : State} (h : Inv s) : ∃ s', Finishes s s' ∧ ∀ c, s'.todo c = [] := by
  generalize hn : remaining s = n
  induction n generalizing s with
  | zero =>
    refine ⟨s, .refl s, fun c => ?_⟩
    by_contra hc
    obtain ⟨c', s', hs⟩ := progress h ⟨c, hc⟩
    have := remaining_exec hs
    omega
  | succ n ih =>
    by_cases hall : ∀ c, s.todo c = []
    · exact ⟨s, .refl s, hall⟩
    · push Not at hall
      obtain ⟨c', s', hs⟩ := progress h hall
      have := remaining_exec hs
      obtain ⟨s'', hf, he⟩ := ih (inv_exec h hs) (by omega)
      exact ⟨s'', finishes_trans hs hf, he⟩

/-- Operations of the callbacks in this order. -/
def execs : List Callback → State → Option State
  | [], s => some s
  | c :: cs, s =>
    match s.exec c with
    | none => none
    | some s' => execs cs s'

theorem reach_execs {R : Callback → List Op → Prop} (cs : List Callback) {s s' : State} (h : Reach R s) (hs : execs cs s = some s') :
    Reach R s' := by
  induction cs generalizing s with
  | nil => obtain rfl := Option.some.inj hs; exact h
  | cons c cs ih =>
    rw [execs] at hs
    split at hs
    · cases hs
    · rename_i s1 h1
      exact ih (.exec c h h1) hs

/-! ### Shutdown -/

theorem shutdown_send_check (e : Bool) (n1 n2 : Nat) (last : Bool) :
    check .pointcloud [] (select e n1 ++ [.read .initialised] ++
      protectedSleep .preintegration false false [.read .lastPreint] n2 last) = some [] := by
  rw [check_append, check_append, check_select, Option.bind_some]
  exact check_sleep_unlocked .pointcloud .preintegration _ n2 rfl last

theorem shutdown_biases_check (e i : Bool) (n1 n2 n3 : Nat) (last : Bool) :
    check .pointcloud [] (select e n1 ++ send i n2 ++ protectedSleep .preintegration false false biasCondition n3 last) = some [] := by
  rw [check_append, check_append, check_select, Option.bind_some, check_send, Option.bind_some]
  exact check_sleep_unlocked .pointcloud .preintegration _ n3 rfl last

/-- Mutexes are exclusive, whatever the callbacks do. -/
def Exclusive (s : State) : Prop := ∀ m c c', m ∈ s.held c → m ∈ s.held c' → c = c'

theorem exclusive_exec {s s' : State} {c : Callback} (h : Exclusive s) (hs : s.exec c = some s') : Exclusive s' := by
  unfold State.exec at hs
  split at hs
  · cases hs
  · rename_i m r ht
    split at hs
    · rename_i hfree
      rw [free_iff] at hfree
      obtain rfl := Option.some.inj hs
      intro m' c1 c2 h1 h2
      change m' ∈ set s.held c (m :: s.held c) c1 at h1
      change m' ∈ set s.held c (m :: s.held c) c2 at h2
      by_cases e1 : c1 = c <;> by_cases e2 : c2 = c
      · rw [e1, e2]
      · subst e1
        rw [set_self] at h1
        rw [set_other _ _ e2] at h2
        rcases List.mem_cons.1 h1 with rfl | h1
        · exact absurd h2 (hfree c2)
        · exact h m' _ _ h1 h2
      · subst e2
        rw [set_self] at h2
        rw [set_other _ _ e1] at h1
        rcases List.mem_cons.1 h2 with rfl | h2
        · exact absurd h1 (hfree c1)
        · exact h m' _ _ h1 h2
      · rw [set_other _ _ e1] at h1
        rw [set_other _ _ e2] at h2
        exact h m' _ _ h1 h2
    · cases hs
  · rename_i m r ht
    split at hs
    · obtain rfl := Option.some.inj hs
      have hsub : ∀ c' m', m' ∈ set s.held c ((s.held c).erase m) c' → m' ∈ s.held c' := by
        intro c' m' h'
        by_cases he : c' = c
        · subst he; rw [set_self] at h'; exact List.mem_of_mem_erase h'
        · rwa [set_other _ _ he] at h'
      exact fun m' c1 c2 h1 h2 => h m' _ _ (hsub _ _ h1) (hsub _ _ h2)
    · cases hs
  · obtain rfl := Option.some.inj hs
    exact h

theorem exclusive_reach {R : Callback → List Op → Prop} {s : State} (h : Reach R s) : Exclusive s := by
  induction h with
  | idle => exact fun m c c' h => (List.not_mem_nil h).elim
  | start c ops _ _ _ ih => exact ih
  | exec c _ hs ih => exact exclusive_exec ih hs

/-- At shutdown: asleep in a wait that returns with the mutex, awake again, or ended with the mutex. -/
def Leaves (m : Mutex) (s : State) (c : Callback) : Prop :=
  s.todo c = [.sleep, .lock m] ∨ s.todo c = [.lock m] ∨ (s.todo c = [] ∧ m ∈ s.held c)

theorem leaves_exec {m : Mutex} {s s' : State} {c c' : Callback} (h : Leaves m s c) (hs : s.exec c' = some s') : Leaves m s' c := by
  by_cases he : c = c'
  · subst he
    rcases h with h | h | ⟨h, hm⟩
    · unfold State.exec at hs
      rw [h] at hs
      obtain rfl := Option.some.inj hs
      exact .inr (.inl (set_self _ _ _))
    · unfold State.exec at hs
      rw [h] at hs
      simp only at hs
      split at hs
      · obtain rfl := Option.some.inj hs
        refine .inr (.inr ⟨set_self _ _ _, ?_⟩)
        show m ∈ set s.held c (m :: s.held c) c
        rw [set_self]; exact List.mem_cons_self
      · cases hs
    · unfold State.exec at hs
      rw [h] at hs
      cases hs
  · obtain ⟨o, r, ht, ht'⟩ := exec_todo hs
    have h1 : s'.todo c = s.todo c := by rw [ht', set_other _ _ he]
    have h2 : s'.held c = s.held c := by
      unfold State.exec at hs
      split at hs
      · cases hs
      · split at hs
        · obtain rfl := Option.some.inj hs; exact set_other _ _ he
        · cases hs
      · split at hs
        · obtain rfl := Option.some.inj hs; exact set_other _ _ he
        · cases hs
      · obtain rfl := Option.some.inj hs; rfl
    unfold Leaves
    rw [h1, h2]
    exact h

theorem leaves_finishes {m : Mutex} {s s' : State} {c : Callback} (h : Leaves m s c) (hf : Finishes s s') : Leaves m s' c := by
  induction hf with
  | refl => exact h
  | exec c' _ hs ih => exact leaves_exec ih hs

theorem exclusive_finishes {s s' : State} (h : Exclusive s) (hf : Finishes s s') : Exclusive s' := by
  induction hf with
  | refl => exact h
  | exec c' _ hs ih => exact exclusive_exec ih hs

/-- A callback that locks `m`, uses members, and goes to sleep for the first time. -/
theorem reach_asleep {R : Callback → List Op → Prop} {s : State} {c : Callback} {m : Mutex} {uses : List Op} (h : Reach R s)
    (ht : s.todo c = []) (hh : ∀ c', s.held c' = []) (huse : ∀ o ∈ uses, (∃ v, o = .read v) ∨ ∃ v, o = .write v)
    (hR : R c ([.lock m] ++ uses ++ [.unlock m, .sleep, .lock m])) :
    ∃ s', Reach R s' ∧ s'.todo c = [.sleep, .lock m] ∧ (∀ c', s'.held c' = []) ∧ ∀ c', c' ≠ c → s'.todo c' = s.todo c' := by
  have h1 : Reach R (s.start c _) := .start c _ h ht hR
  have h2 : Reach R ⟨set s.held c [m], set s.todo c (uses ++ [.unlock m, .sleep, .lock m])⟩ := by
    refine .exec c h1 ?_
    unfold State.exec State.start
    simp only [set_self]
    show (if _ then _ else _) = _
    rw [if_pos (by rw [free_iff]; intro c' hm; change m ∈ s.held c' at hm; rw [hh c'] at hm; exact List.not_mem_nil hm)]
    congr 2
    · show set s.held c (m :: s.held c) = _
      rw [hh c]
    · funext c'
      by_cases he : c' = c
      · subst he; rw [set_self, set_self]; rfl
      · rw [set_other _ _ he, set_other _ _ he, set_other _ _ he]
  clear hR h1
  induction uses with
  | nil =>
    refine ⟨⟨set s.held c [], set s.todo c [.sleep, .lock m]⟩, ?_, set_self _ _ _, fun c' => ?_, fun c' he => set_other _ _ he⟩
    · refine .exec c h2 ?_
      unfold State.exec
      simp only [set_self, List.nil_append]
      rw [if_pos (by simp)]
      congr 2
      · funext c'
        by_cases he : c' = c
        · subst he; rw [set_self, set_self]; simp
        · rw [set_other _ _ he, set_other _ _ he, set_other _ _ he]
      · funext c'
        by_cases he : c' = c
        · subst he; rw [set_self, set_self]
        · rw [set_other _ _ he, set_other _ _ he, set_other _ _ he]
    · show set s.held c [] c' = []
      by_cases he : c' = c
      · subst he; exact set_self _ _ _
      · rw [set_other _ _ he]; exact hh c'
  | cons o uses ih =>
    refine ih (fun o' ho' => huse o' (List.mem_cons_of_mem _ ho')) (.exec c h2 ?_)
    unfold State.exec
    rcases huse o List.mem_cons_self with ⟨v, rfl⟩ | ⟨v, rfl⟩
    all_goals
      simp only [set_self, List.cons_append]
      congr 2
      funext c'
      by_cases he : c' = c
      · subst he; rw [set_self, set_self]
      · rw [set_other _ _ he, set_other _ _ he, set_other _ _ he]

end Locks

end Serpent
