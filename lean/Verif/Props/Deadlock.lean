import Verif.Lemmas.Scheduling

/-!
# C72: the front end and the back end do not wait for one another forever

What holds: with registration factors, enough threads and enough stereo frames, the callbacks always come to a point where the
pointcloud callback has ended or waits for the sensors only, and after a bounded number of events.

What does not hold:
* without registration factors, the biases of a state can arrive while the pointcloud callback still waits for those of the state
  before (with an exact comparison of stamps);
* with fewer threads than that (among them the default of 4 threads in one node with all factors) all threads can be taken by
  callbacks that wait for a callback without a thread;
* with `only_graph_frames`, two consecutive states without a stereo frame stop the system;
* without any factors that optimise, the third state never ends.
-/

namespace Serpent

namespace Schedule

/-- A state in which the running pointcloud callback never ends, whatever happens afterwards. -/
def StuckForever (cfg : Cfg) (d : Data) (s : Node) : Prop :=
  ∀ s', Later cfg d s s' → s'.phase = .bias ∧ s'.done = s.done

/-- The system has the threads it needs, when registration factors are enabled: five in one node (four without stereo factors),
four in each of two nodes (three without stereo factors). -/
theorem enough_iff (cfg : Cfg) : cfg.Enough ↔
    (if cfg.split then (if cfg.stereo then 4 else 3) else (if cfg.stereo then 5 else 4)) ≤ cfg.threads := by
  unfold Cfg.Enough
  cases cfg.split <;> cases cfg.stereo <;> simp

/-- C72: with registration factors, enough threads and enough stereo frames, for every schedule: in a state where no callback can
go on or start, the pointcloud callback has ended or waits for sensor data only, and a thread is free for that data. -/
theorem C72_no_deadlock_partial (cfg : Cfg) (d : Data) (hT : StrictMono d.T) (hr : cfg.reg = true) (hn : cfg.Enough)
    (he : EnoughFrames cfg d) (s : Node) (h : Reach cfg d s) (hq : Quiet cfg d s) :
    (s.phase = .idle ∨ WaitsForSensors cfg d s) ∧ FreeFront cfg s := by
  obtain ⟨hc, ho⟩ := reach_counts (.inr (.inl hr)) h
  have hf := reach_frames hT h
  refine ⟨?_, (quiet_free hc hf hn hq).1⟩
  rcases quiet_progress hT hc ho hf hn he hq with hp | hp | ⟨-, hp⟩
  · exact .inl hp
  · exact .inr hp
  · exact absurd (bias_le_awaited hc ho hr) (by omega)

/-- C72: between two arrivals of sensor data only finitely many events happen, at most a fixed number per pointcloud and stereo
frame received. -/
theorem C72_bounded (cfg : Cfg) (d : Data) (hf : cfg.Optimises) (s s' : Node) (h : Reach cfg d s) (n : Nat)
    (hw : Works cfg d n s s') : n ≤ 50 * s.started + 3 * s.images.length + 2 * s.features.length + 1 := by
  have key : Reach cfg d s' ∧ s'.started = s.started ∧ work s + n ≤ work s' := by
    induction hw with
    | refl => exact ⟨h, rfl, by simp⟩
    | step e _ he hs ih =>
      obtain ⟨i1, i2, i3⟩ := ih h
      obtain ⟨w1, w2⟩ := work_step he hs
      exact ⟨.step e i1 hs, by rw [w2, i2], by push_cast; omega⟩
  obtain ⟨k1, k2, k3⟩ := key
  have hle := work_le (reach_counts hf k1).1
  have hc := (reach_counts hf h).1
  have h0 : -(3 * (s.images.length : Int)) - 2 * s.features.length - 1 ≤ work s := by
    have h1 : s.stereoRun.isSome.toNat ≤ 1 := Bool.toNat_le _
    have h2 : s.baroRun.toNat ≤ 2 * s.baroTaken := by
      cases hb : s.baroRun
      · simp
      · have := hc.baroRun hb
        rw [Bool.toNat_true]; omega
    have h3 : s.mapRun.toNat ≤ 2 * s.mapsTaken := by
      cases hb : s.mapRun
      · simp
      · have := hc.mapRun hb
        rw [Bool.toNat_true]; omega
    unfold work
    cases s.phase <;> simp <;> omega
  rw [k2] at hle
  omega

/-- C72: so from every state the callbacks can go on, without further sensor data, until the pointcloud callback has ended or waits
for sensor data only — and every maximal sequence of events gets there, by `C72_bounded`. -/
theorem C72_progress_partial (cfg : Cfg) (d : Data) (hT : StrictMono d.T) (hr : cfg.reg = true) (hn : cfg.Enough)
    (he : EnoughFrames cfg d) (s : Node) (h : Reach cfg d s) :
    ∃ n s', Works cfg d n s s' ∧ (s'.phase = .idle ∨ WaitsForSensors cfg d s') ∧ FreeFront cfg s' := by
  have hmax : ∀ m : Nat, ∀ n s', Works cfg d n s s' →
      50 * s.started + 3 * s.images.length + 2 * s.features.length + 1 < n + m →
      ∃ n' s'', Works cfg d n' s s'' ∧ Quiet cfg d s'' := by
    intro m
    induction m with
    | zero =>
      intro n s' hw hlt
      have := C72_bounded cfg d (.inr (.inl hr)) s s' h n hw
      omega
    | succ m ih =>
      intro n s' hw hlt
      by_cases hq : Quiet cfg d s'
      · exact ⟨n, s', hw, hq⟩
      · unfold Quiet at hq
        push Not at hq
        obtain ⟨e, hx, hs⟩ := hq
        obtain ⟨s'', hs⟩ := Option.ne_none_iff_exists'.1 hs
        exact ih (n + 1) s'' (.step e hw hx hs) (by omega)
  obtain ⟨n, s', hw, hq⟩ := hmax _ 0 s (.refl s) (Nat.lt_add_left 0 (Nat.lt_succ_self _))
  have hreach : Reach cfg d s' := by
    clear hq hmax
    induction hw with
    | refl => exact h
    | step e _ _ hs ih => exact .step e (ih h) hs
  exact ⟨n, s', hw, C72_no_deadlock_partial cfg d hT hr hn he s' hreach hq⟩

/-- C72: what the threads are. At every time, each callback that has begun and not ended occupies one, and the occupied ones of a
node are never more than it has: of the pointcloud callback, the stereo features, the IMU array, the local map and the pressure
callback together in one node, of the first and of the other ones in two nodes. -/
theorem C72_threads (cfg : Cfg) (d : Data) (s : Node) (h : Reach cfg d s) :
    let front := if s.phase = .idle then 0 else 1
    let back := (if s.stereoRun = none then 0 else 1) + (if s.imuRun = true then 1 else 0) + (if s.mapRun = true then 1 else 0) +
      (if s.baroRun = true then 1 else 0)
    if cfg.split = true then front ≤ cfg.threads ∧ back ≤ cfg.threads else front + back ≤ cfg.threads := by
  have key : if cfg.split = true then busyFront s ≤ cfg.threads ∧ busyBack s ≤ cfg.threads
      else busyFront s + busyBack s ≤ cfg.threads := threads_reach h
  have e : busyBack s = (if s.stereoRun = none then 0 else 1) + (if s.imuRun = true then 1 else 0) +
      (if s.mapRun = true then 1 else 0) + (if s.baroRun = true then 1 else 0) := by
    unfold busyBack
    cases s.stereoRun <;> cases s.imuRun <;> cases s.mapRun <;> cases s.baroRun <;> rfl
  rw [e] at key
  exact key

/-- C72 in every factor configuration: the only way to stop without waiting for the sensors is that the biases of the state have
overtaken the pointcloud callback. -/
theorem C72_any_factors_partial (cfg : Cfg) (d : Data) (hT : StrictMono d.T) (hf : cfg.Optimises) (hn : cfg.Enough)
    (he : EnoughFrames cfg d) (s : Node) (h : Reach cfg d s) (hq : Quiet cfg d s) :
    s.phase = .idle ∨ WaitsForSensors cfg d s ∨ (cfg.reg = false ∧ s.phase = .bias ∧ s.awaited < s.bias) := by
  obtain ⟨hc, ho⟩ := reach_counts hf h
  rcases quiet_progress hT hc ho (reach_frames hT h) hn he hq with hp | hp | ⟨hp, hb⟩
  · exact .inl hp
  · exact .inr (.inl hp)
  · refine .inr (.inr ⟨?_, hp, hb⟩)
    by_contra hr
    have := bias_le_awaited hc ho (by simpa using hr)
    omega

/-! ### Where it fails -/

/-- States at the times 0, 1, 2, …, each with a stereo frame. -/
def steady : Data := ⟨fun k => (k : Int), fun _ => true⟩

theorem steady_mono : StrictMono steady.T := fun _ _ h => Int.ofNat_lt.2 h

/-- Sensor data of the first three states. -/
def arrivals (cfg : Cfg) : List Ev :=
  [.sensor, .sensor, .sensor] ++ if cfg.stereo && !cfg.onlyGraph then [.frame 0, .frame 1, .frame 2] else []

/-- The first state, the second state up to its pose, and the third pointcloud up to its wait. -/
def busy : List Ev :=
  [.cloud, .select, .send, .initial, .biases, .finish, .cloud, .select, .send, .imuStart, .imuFinish, .finish]

/-- A schedule for `n` threads (in one node). -/
def schedule (cfg : Cfg) : Nat → List Ev
  | 1 => arrivals cfg ++ [.cloud, .select, .send]
  | 2 => arrivals cfg ++ busy ++ [.cloud, .select, .send, .imuStart]
  | 3 => arrivals cfg ++ busy ++ [.filtered, .map, .mapStart, .cloud, .select, .send, .imuStart]
  | _ => arrivals cfg ++ busy ++ [.filtered, .map, .mapStart, .track, .stereoStart, .stereoRound, .track, .stereoStart, .stereoRound,
      .cloud, .select, .send, .imuStart, .track, .stereoStart]

/-- A schedule for `n` threads in each of two nodes. -/
def scheduleSplit (cfg : Cfg) : Nat → List Ev
  | 1 => schedule cfg 1
  | 2 => schedule cfg 3
  | _ => schedule cfg 4

theorem dead_schedule : ∀ imu stereo baro s2m onlyGraph split : Bool, ∀ n < 5, 0 < n →
    ¬ (Cfg.mk imu true stereo baro s2m onlyGraph split n).Enough →
    ∃ s ∈ run ⟨imu, true, stereo, baro, s2m, onlyGraph, split, n⟩ steady
      (if split then scheduleSplit ⟨imu, true, stereo, baro, s2m, onlyGraph, split, n⟩ n
        else schedule ⟨imu, true, stereo, baro, s2m, onlyGraph, split, n⟩ n) {},
      Dead ⟨imu, true, stereo, baro, s2m, onlyGraph, split, n⟩ s ∧ s.done < s.sensors := by
  unfold Cfg.Enough
  decide +kernel

/-- C72 fails for every number of threads below that: all threads can be taken by callbacks that wait for one another, although
every state has its sensor data and its stereo frame. -/
theorem C72_fails_threads (cfg : Cfg) (hr : cfg.reg = true) (h0 : 0 < cfg.threads) (hn : ¬ cfg.Enough) :
    ∃ s, Reach cfg steady s ∧ s.phase = .bias ∧ s.done < s.sensors ∧ StuckForever cfg steady s := by
  obtain ⟨imu, reg, stereo, baro, s2m, onlyGraph, split, n⟩ := cfg
  obtain rfl : reg = true := hr
  have h5 : n < 5 := by
    rw [enough_iff] at hn
    revert hn
    cases split <;> cases stereo <;> simp <;> omega
  obtain ⟨s, hs, hd, hlt⟩ := dead_schedule imu stereo baro s2m onlyGraph split n h5 h0 hn
  exact ⟨s, reach_run .init hs, hd.phase, hlt, fun s' hl => hd.later hl⟩

/-- C72 fails in the default configuration: all factors, scan-to-map registration, only graph frames, one node with 4 threads. -/
theorem C72_fails_default : ∃ s, Reach ⟨true, true, true, true, true, true, false, 4⟩ steady s ∧ s.phase = .bias ∧
    s.done < s.sensors ∧ StuckForever ⟨true, true, true, true, true, true, false, 4⟩ steady s :=
  C72_fails_threads _ rfl (by decide) (by unfold Cfg.Enough; decide)

/-- The first state, and the second one up to the arrival of its biases; the pointcloud callback waits for IMU data meanwhile. -/
def overtake (cfg : Cfg) : List Ev :=
  [.sensor] ++ (if cfg.stereo && !cfg.onlyGraph then [.frame 0, .frame 1] else []) ++
  [.cloud, .select, .send, .initial, .biases, .finish] ++ (if cfg.stereo && cfg.onlyGraph then [.sensor] else []) ++
  [.cloud, .select, .send, .imuStart, .imuFinish] ++
  (if cfg.stereo then [.track, .stereoStart, .stereoRound, .track, .stereoStart, .stereoRound] else []) ++ [.biases]

theorem overtaken_schedule : ∀ imu stereo baro s2m onlyGraph split : Bool, imu = true ∨ stereo = true →
    ∃ s ∈ run ⟨imu, false, stereo, baro, s2m, onlyGraph, split, 2⟩ steady
      (overtake ⟨imu, false, stereo, baro, s2m, onlyGraph, split, 2⟩) {}, s.phase = .bias ∧ s.awaited < s.bias ∧ s.done = 1 := by
  decide +kernel

/-- C72 fails without registration factors, for every number of threads: the back end does not wait for the pointcloud callback, so
the biases of its state can arrive before it looks for those of the state before. It compares stamps for equality, and never ends. -/
theorem C72_fails_overtaken (cfg : Cfg) (hr : cfg.reg = false) (hf : cfg.Optimises) (h2 : 2 ≤ cfg.threads) :
    ∃ s, Reach cfg steady s ∧ s.phase = .bias ∧ StuckForever cfg steady s := by
  obtain ⟨imu, reg, stereo, baro, s2m, onlyGraph, split, n⟩ := cfg
  obtain rfl : reg = false := hr
  have hf' : imu = true ∨ stereo = true := by
    rcases hf with h | h | h
    · exact .inl h
    · cases h
    · exact .inr h
  obtain ⟨s, hs, hp, ha, -⟩ := overtaken_schedule imu stereo baro s2m onlyGraph split hf'
  have hs' := run_threads (cfg := ⟨imu, false, stereo, baro, s2m, onlyGraph, split, 2⟩) h2 hs
  exact ⟨s, reach_run .init hs', hp, fun s' hl => ⟨(overtaken_later hp ha hl).1, (overtaken_later hp ha hl).2.1⟩⟩

/-- C72 fails with `only_graph_frames` when two consecutive states (after the first) have no stereo frame: for every schedule and
however much sensor data follows, the pointcloud callback of the second of them is the last one. -/
theorem C72_fails_sparse_stereo (cfg : Cfg) (d : Data) (hT : StrictMono d.T) (hst : cfg.stereo = true) (hog : cfg.onlyGraph = true)
    (k : Nat) (hk : 0 < k) (h1 : d.hasFrame k = false) (h2 : d.hasFrame (k + 1) = false) (s : Node) (h : Reach cfg d s) :
    s.done ≤ k + 1 := (sparse_reach hT hst hog hk h1 h2 h).done

/-- C72 fails without IMU, registration and stereo factors: the pointcloud callback of the third state never ends. -/
theorem C72_fails_no_factors (cfg : Cfg) (d : Data) (hf : ¬ cfg.Optimises) (s : Node) (h : Reach cfg d s) : s.done ≤ 2 :=
  (idle_reach hf h).done

/-! ### C115: the results of the optimisation while a pointcloud is deskewed -/

/-- C115: with registration factors, in every schedule: from the moment the biases the pointcloud callback waits for have arrived
until it has published the deskewed pointcloud, no optimised odometry is even on its way, so the callback reads the biases, the
state and the parameters undisturbed (the claim of the comment at frontend.cpp:453). -/
theorem C115_undisturbed_partial (cfg : Cfg) (d : Data) (hr : cfg.reg = true) (s : Node) (h : Reach cfg d s)
    (hb : s.bias = s.awaited) : s.bias = s.opt ∧ step cfg d s .biases = none := by
  obtain ⟨hc, ho⟩ := reach_counts (.inr (.inl hr)) h
  have hle := opt_le_awaited hc ho hr
  have := hc.bias_le
  have he : s.bias = s.opt := by omega
  refine ⟨he, ?_⟩
  simp [step, he]

/-- Until the pointcloud callback ends, no event brings other biases. -/
theorem C115_stays_partial (cfg : Cfg) (d : Data) (hr : cfg.reg = true) (s s' : Node) (h : Reach cfg d s) (hl : Later cfg d s s')
    (hp : s.phase = .bias) (hb : s.bias = s.awaited) (hd : s'.done = s.done) : s'.phase = .bias ∧ s'.bias = s.bias := by
  have key : s.done ≤ s'.done ∧ (s'.done = s.done → s'.phase = .bias ∧ s'.bias = s.bias) := by
    clear hd
    induction hl with
    | refl => exact ⟨Nat.le_refl _, fun _ => ⟨hp, rfl⟩⟩
    | step e hl hs ih =>
      rename_i s1 s2
      obtain ⟨i1, i2⟩ := ih
      obtain ⟨m1, m2⟩ := done_step hs
      refine ⟨by omega, fun he => ?_⟩
      have hd : s1.done = s.done := by omega
      obtain ⟨j1, j2⟩ := i2 hd
      have hreach : Reach cfg d s1 := reach_later h hl
      have hb1 : s1.bias = s1.awaited := by rw [j2, hb]; unfold Node.awaited; rw [hd]
      have hnone := (C115_undisturbed_partial cfg d hr s1 hreach hb1).2
      obtain ⟨k1, k2⟩ := m2 j1 (by omega) (fun hbe => by rw [hbe, hnone] at hs; cases hs)
      exact ⟨k1, by rw [k2, j2]⟩
  exact key.2 hd

/-- Same schedule as `overtake`, stopped before the biases arrive, with the IMU data of the second state there. -/
def disturb (cfg : Cfg) : List Ev := .sensor :: (overtake cfg).dropLast

theorem disturbed_schedule : ∀ imu stereo baro s2m onlyGraph split : Bool, imu = true ∨ stereo = true →
    ∃ s ∈ run ⟨imu, false, stereo, baro, s2m, onlyGraph, split, 2⟩ steady
      (disturb ⟨imu, false, stereo, baro, s2m, onlyGraph, split, 2⟩) {}, s.phase = .bias ∧ s.bias = s.awaited ∧ s.done < s.sensors ∧
      s.bias < s.opt ∧ FreeFront ⟨imu, false, stereo, baro, s2m, onlyGraph, split, 2⟩ s := by
  decide +kernel

/-- C115 fails without registration factors: the pointcloud callback can go on and deskew, and at the same moment the optimised odometry
callback can run and replace what it reads (a data race, see `C117_fails_mutexes_alone`). -/
theorem C115_fails (cfg : Cfg) (hr : cfg.reg = false) (hf : cfg.Optimises) (h2 : 2 ≤ cfg.threads) :
    ∃ s, Reach cfg steady s ∧ (∃ s', step cfg steady s .finish = some s') ∧ ∃ s', step cfg steady s .biases = some s' := by
  obtain ⟨imu, reg, stereo, baro, s2m, onlyGraph, split, n⟩ := cfg
  obtain rfl : reg = false := hr
  have hf' : imu = true ∨ stereo = true := by
    rcases hf with h | h | h
    · exact .inl h
    · cases h
    · exact .inr h
  obtain ⟨s, hs, hp, ha, hd, hb, hfree⟩ := disturbed_schedule imu stereo baro s2m onlyGraph split hf'
  have hs' := run_threads (cfg := ⟨imu, false, stereo, baro, s2m, onlyGraph, split, 2⟩) h2 hs
  refine ⟨s, reach_run .init hs', ⟨{ s with phase := .idle, done := s.done + 1 }, ?_⟩, ⟨{ s with bias := s.bias + 1 }, ?_⟩⟩
  · simp only [step]
    rw [if_pos ⟨hp, ha, hd⟩]
  · simp only [step]
    rw [if_pos ⟨hb, lt_of_lt_of_le hfree h2⟩]

/-! ### Non-vacuity -/

/-- All factors with five threads: three states are completed, and the fourth waits. -/
def full : Cfg := ⟨true, true, true, true, true, true, false, 5⟩

example : full.reg = true ∧ full.Enough ∧ EnoughFrames full steady ∧ StrictMono steady.T :=
  ⟨rfl, by unfold Cfg.Enough; decide, fun _ _ _ _ => .inl rfl, steady_mono⟩

/-- A run of three states with registrations and pressures. -/
def threeStates : List Ev :=
  [.sensor, .cloud, .select, .send, .initial, .biases, .finish, .filtered, .scan, .map, .mapStart, .track, .stereoStart, .stereoRound,
   .sensor, .cloud, .select, .send, .imuStart, .imuFinish, .finish, .pressure, .baroStart, .baroFinish,
   .filtered, .scan, .mapFinish, .register, .track, .stereoStart, .stereoRound, .biases, .map, .mapStart,
   .sensor, .cloud, .select, .send, .imuStart, .imuFinish, .finish, .filtered, .scan, .mapFinish, .register, .track, .stereoStart,
   .stereoRound, .biases, .cloud]

example : ∃ s ∈ run full steady threeStates {}, s.done = 3 ∧ s.phase = .select ∧ s.opt = 3 ∧ s.bias = 3 ∧ s.sensors = 3 := by
  decide +kernel

/-- The biases of the first state have arrived while its pointcloud callback waits. -/
example : ∃ s ∈ run full steady [.sensor, .cloud, .select, .send, .initial, .biases] {}, s.phase = .bias ∧ s.bias = s.awaited := by
  decide +kernel

example : (⟨true, true, true, true, true, true, false, 4⟩ : Cfg).Enough ↔ False := by
  unfold Cfg.Enough
  decide

example : (⟨true, true, true, true, true, true, true, 4⟩ : Cfg).Enough := by
  unfold Cfg.Enough
  decide

/-- Two states without a frame. -/
example : ∃ s ∈ run ⟨true, false, true, false, false, true, false, 5⟩ ⟨fun k => k, fun k => k = 0⟩
    [.sensor, .sensor, .cloud, .select, .send, .initial, .biases, .finish, .cloud, .select, .send, .imuStart, .imuFinish, .finish] {},
    s.done = 2 := by
  decide +kernel

/-- No factors. -/
example : ∃ s ∈ run ⟨false, false, false, false, false, false, false, 5⟩ steady
    [.sensor, .sensor, .cloud, .select, .send, .initial, .biases, .finish, .cloud, .select, .send, .imuStart, .imuFinish, .finish] {},
    s.done = 2 := by
  decide +kernel

end Schedule

end Serpent
