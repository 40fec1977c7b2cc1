import Verif.Lemmas.Locks

/-!
# C116–C118: mutexes, data races and shutdown

Specification, in terms of the states of `Model/Locks.lean`: the running callbacks, the mutexes each holds, and the operations each
still has to do. Every interleaving of the callbacks, with any number of rounds in every wait, is a path through these states.
-/

namespace Serpent

namespace Locks

/-! ### C116: mutexes -/

/-- C116: in every interleaving, as long as some callback has not ended, some callback can go on: no set of callbacks waits for
each other's mutexes. -/
theorem C116_no_lock_deadlock (s : State) (h : Reach Run s) (hn : ∃ c, s.todo c ≠ []) : ∃ c s', s.exec c = some s' :=
  progress (reach_inv (fun _ _ => run_check) h) hn

/-- C116: a callback about to sleep holds no mutex, so that the callbacks that bring what it waits for can run. -/
theorem C116_no_mutex_held_asleep (s : State) (h : Reach Run s) (c : Callback) (r : List Op) (ht : s.todo c = .sleep :: r) :
    s.held c = [] := by
  have hc := (reach_inv (fun _ _ => run_check) h).check c
  rw [ht, check] at hc
  split at hc
  · rename_i he; exact List.isEmpty_iff.1 he
  · cases hc

/-- C116: a callback that has ended holds no mutex. -/
theorem C116_released (s : State) (h : Reach Run s) (c : Callback) (ht : s.todo c = []) : s.held c = [] :=
  held_idle (reach_inv (fun _ _ => run_check) h) ht

/-- C116: no callback unlocks a mutex it does not hold, or locks one it holds (both undefined behaviour). -/
theorem C116_lock_unlock_defined (s : State) (h : Reach Run s) (c : Callback) (m : Mutex) (r : List Op) :
    (s.todo c = .unlock m :: r → m ∈ s.held c) ∧ (s.todo c = .lock m :: r → m ∉ s.held c) := by
  have hc := (reach_inv (fun _ _ => run_check) h).check c
  constructor
  · intro ht
    rw [ht, check] at hc
    split at hc
    · rename_i hm; simpa using hm
    · cases hc
  · intro ht hm
    rw [ht, check] at hc
    split at hc
    · rename_i hm'
      exact absurd (of_decide_eq_true (List.all_eq_true.1 hm' m hm)) (Nat.lt_irrefl _)
    · cases hc

/-- C116: the running callbacks can all end (each wait going round the number of times it is going to), and every sequence of their
operations is finite. -/
theorem C116_all_end (s : State) (h : Reach Run s) : ∃ s', Finishes s s' ∧ ∀ c, s'.todo c = [] :=
  finishes (reach_inv (fun _ _ => run_check) h)

theorem C116_finite (s s' : State) (c : Callback) (h : s.exec c = some s') :
    (Callback.all.map fun c => (s'.todo c).length).sum + 1 = (Callback.all.map fun c => (s.todo c).length).sum :=
  remaining_exec h

/-! ### C117: data races -/

/-- The operation uses the member. -/
def Uses (o : Op) (v : Var) : Prop := o = .read v ∨ o = .write v

/-- Two callbacks are about to use the same member, one of them writing. -/
def Race (s : State) (c c' : Callback) (v : Var) : Prop :=
  c ≠ c' ∧ ∃ r o' r', s.todo c = .write v :: r ∧ s.todo c' = o' :: r' ∧ Uses o' v

/-- C117: in every interleaving, no two callbacks use the same member at the same time with one of them writing, except for the
results of the optimisation, written by the optimised odometry callback and read by the pointcloud callback (C115 is about them). -/
theorem C117_no_race_partial (s : State) (h : Reach Run s) (c c' : Callback) (v : Var) (hr : Race s c c' v) :
    c = .odometry ∧ c' = .pointcloud ∧ (v = .worldState ∨ v = .biases ∨ v = .params) := by
  obtain ⟨hne, r, o', r', h1, h2, hu⟩ := hr
  have hi := reach_inv (fun _ _ => run_check) h
  have hc := hi.check c
  have hc' := hi.check c'
  rw [h1, check] at hc
  have hw : mayWrite c (s.held c) v = true := by
    split at hc
    · assumption
    · cases hc
  have hr : mayRead c' (s.held c') v = true ∨ mayWrite c' (s.held c') v = true := by
    rw [h2] at hc'
    rcases hu with rfl | rfl
    · rw [check] at hc'
      split at hc'
      · exact .inl (by assumption)
      · cases hc'
    · rw [check] at hc'
      split at hc'
      · exact .inr (by assumption)
      · cases hc'
  unfold mayWrite mayRead at *
  cases hg : guardOf v with
  | only d =>
    rw [hg] at hw hr
    simp only [decide_eq_true_eq, or_self] at hw hr
    exact absurd (hw.trans hr.symm) hne
  | mutex m =>
    rw [hg] at hw hr
    simp only [Bool.and_eq_true, Bool.or_eq_true, List.contains_iff_mem, Bool.not_eq_true', decide_eq_true_eq] at hw hr
    have hex : m ∉ s.held c' := fun hm => hne (hi.exclusive m c c' hw.1 hm)
    rcases hr with (hr | ⟨ho, hp⟩) | hr
    · exact absurd hr hex
    · refine ⟨?_, hp, ?_⟩
      · rcases hw.2 with h' | h'
        · rw [ho] at h'; cases h'
        · exact h'
      · cases v <;> simp [optimised] at ho <;> simp
    · exact absurd hr.1 hex

/-- C117 without the exception: mutexes alone do not exclude that race. The pointcloud callback is about to read the biases outside
`preintegration_mutex` while the optimised odometry callback is about to write them. -/
theorem C117_fails_mutexes_alone : ∃ s, Reach Run s ∧ Race s .odometry .pointcloud .biases := by
  have h0 : Reach Run State.idle := .idle
  have h1 : Reach Run (State.idle.start .pointcloud (pointcloud false false true 0 0 0)) :=
    .start .pointcloud _ h0 rfl (.pointcloud false false true 0 0 0)
  have h2 : Reach Run ((State.idle.start .pointcloud (pointcloud false false true 0 0 0)).start .odometry odometry) :=
    .start .odometry _ h1 rfl .odometry
  let s0 := (State.idle.start .pointcloud (pointcloud false false true 0 0 0)).start .odometry odometry
  let cs := List.replicate 13 Callback.pointcloud ++ List.replicate 3 Callback.odometry
  have hsome : (execs cs s0).isSome = true := by decide +kernel
  obtain ⟨s, hs⟩ := Option.isSome_iff_exists.1 hsome
  have hodo : ((execs cs s0).map fun s => (s.todo .odometry).head?) = some (some (.write .biases)) := by
    decide +kernel
  have hpc : ((execs cs s0).map fun s => (s.todo .pointcloud).head?) = some (some (.read .biases)) := by
    decide +kernel
  rw [hs] at hodo hpc
  have e1 := Option.some.inj hodo
  have e2 := Option.some.inj hpc
  obtain ⟨r, hr⟩ := List.head?_eq_some_iff.1 e1
  obtain ⟨r', hr'⟩ := List.head?_eq_some_iff.1 e2
  exact ⟨s, reach_execs cs h2 hs, by decide, r, _, r', hr, hr', .inl rfl⟩

/-! ### C118: shutdown -/

/-- All runs, including those that end because the node shuts down. -/
def AnyRun (c : Callback) (ops : List Op) : Prop := Run c ops ∨ ShutdownRun c ops

/-- C118: shutdown ends all callbacks as long as no callback is in a wait that returns with its mutex: complete runs, and pointcloud
callbacks that wait for IMU data or biases. -/
theorem C118_shutdown_ends_partial (R : Callback → List Op → Prop)
    (hR : ∀ c ops, R c ops → Run c ops ∨
      (c = .pointcloud ∧ ∃ e n1 n2 last, ops = select e n1 ++ [.read .initialised] ++
        protectedSleep .preintegration false false [.read .lastPreint] n2 last) ∨
      (c = .pointcloud ∧ ∃ e i n1 n2 n3 last, ops = select e n1 ++ send i n2 ++
        protectedSleep .preintegration false false biasCondition n3 last))
    (s : State) (h : Reach R s) : ∃ s', Finishes s s' ∧ ∀ c, s'.todo c = [] := by
  refine finishes (reach_inv (fun c ops hr => ?_) h)
  rcases hR c ops hr with hr | ⟨rfl, e, n1, n2, last, rfl⟩ | ⟨rfl, e, i, n1, n2, n3, last, rfl⟩
  · exact run_check hr
  · exact shutdown_send_check e n1 n2 last
  · exact shutdown_biases_check e i n1 n2 n3 last

/-- The callbacks of the back end that wait. -/
def BackEndWaits (c : Callback) : Prop := c = .pressure ∨ c = .imuArray ∨ c = .features

/-- Shut down while two of them wait: the first to wake up returns with the graph mutex, and the other never ends. -/
theorem C118_two_waiting (R : Callback → List Op → Prop) (s : State) (h : Reach R s) (m : Mutex) (c c' : Callback) (hne : c ≠ c')
    (hc : s.todo c = [.sleep, .lock m]) (hc' : s.todo c' = [.sleep, .lock m]) (s' : State) (hf : Finishes s s') :
    s'.todo c ≠ [] ∨ s'.todo c' ≠ [] := by
  by_contra hcon
  push Not at hcon
  obtain ⟨e1, e2⟩ := hcon
  have hx := exclusive_finishes (exclusive_reach h) hf
  rcases leaves_finishes (.inl hc) hf with h1 | h1 | ⟨-, h1⟩
  · rw [e1] at h1; cases h1
  · rw [e1] at h1; cases h1
  · rcases leaves_finishes (.inl hc') hf with h2 | h2 | ⟨-, h2⟩
    · rw [e2] at h2; cases h2
    · rw [e2] at h2; cases h2
    · exact hne (hx m c c' h1 h2)

/-- C118 fails: for any two of the back end's waiting callbacks there is a run of the system in which they wait at shutdown, and then
not all callbacks end, whatever the schedule. The spinner's threads cannot be joined. -/
theorem C118_fails (c c' : Callback) (hne : c ≠ c') (hc : BackEndWaits c) (hc' : BackEndWaits c') :
    ∃ s, Reach AnyRun s ∧ s.todo c = [.sleep, .lock .graph] ∧ s.todo c' = [.sleep, .lock .graph] ∧
      ∀ s', Finishes s s' → ∃ d, s'.todo d ≠ [] := by
  have hrun : ∀ d, BackEndWaits d → ∃ uses : List Op, (∀ o ∈ uses, (∃ v, o = .read v) ∨ ∃ v, o = .write v) ∧
      AnyRun d ([.lock .graph] ++ uses ++ [.unlock .graph, .sleep, .lock .graph]) := by
    rintro d (rfl | rfl | rfl)
    · refine ⟨[.read .graph, .write .graph], ?_, .inr (ShutdownRun.pressure 1 false)⟩
      intro o ho
      simp only [List.mem_cons, List.not_mem_nil, or_false] at ho
      rcases ho with rfl | rfl
      · exact .inl ⟨_, rfl⟩
      · exact .inr ⟨_, rfl⟩
    · refine ⟨[.read .graph, .read .graph], ?_, .inr (ShutdownRun.imuArray 1 false)⟩
      intro o ho
      simp only [List.mem_cons, List.not_mem_nil, or_false, or_self] at ho
      exact .inl ⟨_, ho⟩
    · refine ⟨[.read .graph, .read .graph], ?_, .inr (ShutdownRun.features [] 1 false)⟩
      intro o ho
      simp only [List.mem_cons, List.not_mem_nil, or_false, or_self] at ho
      exact .inl ⟨_, ho⟩
  obtain ⟨u, hu, hr⟩ := hrun c hc
  obtain ⟨u', hu', hr'⟩ := hrun c' hc'
  obtain ⟨s1, r1, t1, k1, o1⟩ := reach_asleep (Reach.idle (R := AnyRun)) rfl (fun _ => rfl) hu hr
  obtain ⟨s2, r2, t2, k2, o2⟩ := reach_asleep r1 (by rw [o1 c' hne.symm]; rfl) k1 hu' hr'
  refine ⟨s2, r2, by rw [o2 c hne]; exact t1, t2, fun s' hf => ?_⟩
  rcases C118_two_waiting AnyRun s2 r2 .graph c c' hne (by rw [o2 c hne]; exact t1) t2 s' hf with hh | hh
  · exact ⟨c, hh⟩
  · exact ⟨c', hh⟩

/-- A single waiting callback is enough when another callback is about to lock the mutex: once the first has returned with the mutex,
the other never goes on. -/
theorem C118_fails_one_waiting (s : State) (m : Mutex) (c c' : Callback)
    (hc : s.todo c = []) (hm : m ∈ s.held c) (r : List Op) (hc' : s.todo c' = .lock m :: r) (s' : State) (hf : Finishes s s') :
    s'.todo c' = .lock m :: r := by
  have key : s'.todo c' = .lock m :: r ∧ s'.todo c = [] ∧ m ∈ s'.held c := by
    induction hf with
    | refl => exact ⟨hc', hc, hm⟩
    | exec d hf hs ih =>
      obtain ⟨i1, i2, i3⟩ := ih
      have hl := leaves_exec (.inr (.inr ⟨i2, i3⟩)) hs
      have hd : d ≠ c := by
        rintro rfl
        obtain ⟨o, r', ht, -⟩ := exec_todo hs
        rw [i2] at ht; cases ht
      have hd' : d ≠ c' := by
        rintro rfl
        unfold State.exec at hs
        rw [i1] at hs
        simp only at hs
        split at hs
        · rename_i hfree
          exact absurd i3 (free_iff.1 hfree c)
        · cases hs
      obtain ⟨o, r', ht, ht'⟩ := exec_todo hs
      have e1 := congrFun ht' c
      have e2 := congrFun ht' c'
      rw [set_other _ _ (Ne.symm hd)] at e1
      rw [set_other _ _ (Ne.symm hd')] at e2
      refine ⟨by rw [e2]; exact i1, by rw [e1]; exact i2, ?_⟩
      rcases hl with hl | hl | ⟨-, hl⟩
      · rw [e1, i2] at hl; cases hl
      · rw [e1, i2] at hl; cases hl
      · exact hl
  exact key.1

/-! ### Non-vacuity -/

/-- The IMU callback holds both mutexes while the pointcloud callback has selected its state and wants the IMU data. -/
example : ∃ s, Reach Run s ∧ s.held .imu = [.imuData, .preintegration] ∧
    s.todo .pointcloud = .lock .imuData :: (pointcloud true false true 1 0 2).drop 12 := by
  let es : List Callback := [.imu, .imu] ++ List.replicate 11 .pointcloud
  let s0 := (State.idle.start .imu imu).start .pointcloud (pointcloud true false true 1 0 2)
  have h0 : Reach Run s0 := .start .pointcloud _ (.start .imu _ .idle rfl .imu) rfl (.pointcloud true false true 1 0 2)
  have hsome : (execs es s0).isSome = true := by decide +kernel
  obtain ⟨s, hs⟩ := Option.isSome_iff_exists.1 hsome
  have e1 : ((execs es s0).map fun s => s.held .imu) = some [.imuData, .preintegration] := by decide +kernel
  have e2 : ((execs es s0).map fun s => s.todo .pointcloud) =
      some (.lock .imuData :: (pointcloud true false true 1 0 2).drop 12) := by decide +kernel
  rw [hs] at e1 e2
  exact ⟨s, reach_execs es h0 hs, Option.some.inj e1, Option.some.inj e2⟩

/-- The hypotheses of the shutdown theorems: two different waiting callbacks. -/
example : BackEndWaits .imuArray ∧ BackEndWaits .features ∧ Callback.imuArray ≠ .features :=
  ⟨.inr (.inl rfl), .inr (.inr rfl), by decide⟩

end Locks

end Serpent
