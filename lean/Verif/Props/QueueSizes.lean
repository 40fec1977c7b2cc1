import Verif.Props.Deadlock
import Verif.Model.QueueSizes
import Verif.Lemmas.Synchroniser

/-!
# C145: the queues between the callbacks do not overflow

What holds: with registration factors, in every schedule, at most two messages wait in the queues by which the front end, the
registration and the back end exchange the states, and at most two stamps are open in their synchronisers; with scan-to-map
registration also in those of the mapping. A queue in which at most as many messages wait as it holds hands on every message,
in order.

What does not hold, because nothing makes the front end wait for these callbacks:
* without scan-to-map registration the queues of the mapping can overflow;
* the queue of pressures can overflow;
* the queue of stereo features overflows while no state has been created (and later, if the frames are faster than the states);
* with two processes, the queue of a publisher, which holds one message, can overflow for IMU arrays, clouds and pressures.
-/

namespace Serpent

namespace Schedule

/-- The queues on the cycle that every state goes through. -/
def OnCycle (cfg : Cfg) : Topic → Prop
  | .mapClouds | .mapPaths | .localMaps => cfg.s2m = true
  | .pressures | .features => False
  | _ => True

theorem opt_le_regKey {cfg : Cfg} {s : Node} (hc : Counts cfg s) (ho : 0 < s.poses → s.opt = optOf cfg s) (hr : cfg.reg = true) :
    s.opt ≤ s.regKey + 1 := by
  by_cases hp : 0 < s.poses
  · have ho' := ho hp
    unfold optOf at ho'
    rw [hr] at ho'
    cases hst : cfg.stereo <;> rw [hst] at ho' <;> simp at ho' <;> omega
  · have := hc.opt_le
    omega

/-- C145: with registration factors, for every schedule, number of threads and sensor data: at most two messages wait in any queue
of the cycle. -/
theorem C145_at_most_two (cfg : Cfg) (d : Data) (hr : cfg.reg = true) (s : Node) (h : Reach cfg d s) (t : Topic)
    (ht : OnCycle cfg t) : waiting s t ≤ 2 := by
  obtain ⟨hc, ho⟩ := reach_counts (.inr (.inl hr)) h
  have k1 := bias_le_awaited hc ho hr
  have k2 := opt_le_awaited hc ho hr
  have k3 := opt_le_regKey hc ho hr
  obtain ⟨h1, h2, h3, h4, h5, h6, h7, h8, h9, h10, h11, h12, h13, h14, h15, h16, h17, h18, h19, h20, h21, h22, h23, h24, h25⟩ := hc
  have hs : s.sent ≤ s.done + 1 := by rw [h1]; split <;> omega
  clear ho h1
  unfold Node.awaited at *
  cases t <;> simp only [waiting, OnCycle] at ht ⊢
  case initialOdometry => split <;> omega
  case mapClouds => have := h16 ht; omega
  case mapPaths => have := h16 ht; omega
  case localMaps => have := h16 ht; omega
  all_goals omega

/-- C145: on these topics at most one message waits: the initial odometry, the biases, the path changes, the local maps and the
results of the registration. -/
theorem C145_at_most_one (cfg : Cfg) (d : Data) (hr : cfg.reg = true) (s : Node) (h : Reach cfg d s) :
    waiting s .initialOdometry ≤ 1 ∧ waiting s .biases ≤ 1 ∧ waiting s .transforms ≤ 1 ∧
    (cfg.s2m = true → waiting s .mapPaths ≤ 1 ∧ waiting s .localMaps ≤ 1) := by
  obtain ⟨hc, ho⟩ := reach_counts (.inr (.inl hr)) h
  have k1 := bias_le_awaited hc ho hr
  have k2 := opt_le_awaited hc ho hr
  have k3 := opt_le_regKey hc ho hr
  obtain ⟨h1, h2, h3, h4, h5, h6, h7, h8, h9, h10, h11, h12, h13, h14, h15, h16, h17, h18, h19, h20, h21, h22, h23, h24, h25⟩ := hc
  have hs : s.sent ≤ s.done + 1 := by rw [h1]; split <;> omega
  clear ho h1
  simp only [waiting]
  refine ⟨by split <;> omega, by omega, by omega, fun hm => ?_⟩
  have := h16 hm
  constructor <;> omega

/-- C145: so no queue of the cycle ever holds more messages than it has room for. -/
theorem C145_never_over_partial (cfg : Cfg) (d : Data) (hr : cfg.reg = true) (s : Node) (h : Reach cfg d s) (t : Topic)
    (ht : OnCycle cfg t) : waiting s t ≤ capacity t := by
  have h2 := C145_at_most_two cfg d hr s h t ht
  cases t <;> simp only [capacity] <;> try omega
  simp only [waiting]
  split <;> omega

/-- C145: nor does a synchroniser ever have more than two open stamps, of the ten it keeps. -/
theorem C145_synchronisers (cfg : Cfg) (d : Data) (hr : cfg.reg = true) (s : Node) (h : Reach cfg d s) :
    openScans s ≤ 2 ∧ openBiases s ≤ 2 ∧ (cfg.s2m = true → openMaps s ≤ 2) := by
  have a := C145_at_most_two cfg d hr s h .scanClouds trivial
  have b := C145_at_most_two cfg d hr s h .scanTransforms trivial
  have c := C145_at_most_two cfg d hr s h .biases trivial
  unfold openScans openBiases openMaps
  simp only [waiting] at a b c
  refine ⟨by omega, by omega, fun hm => ?_⟩
  have e := C145_at_most_two cfg d hr s h .mapClouds hm
  have f := C145_at_most_two cfg d hr s h .mapPaths hm
  simp only [waiting] at e f
  omega

/-- Two states, whose clouds and IMU arrays wait: the bound is reached. -/
def slow : List Ev := [.sensor, .sensor, .sensor, .cloud, .select, .send, .initial, .biases, .finish, .cloud, .select, .send, .finish,
  .cloud, .select, .send]

example : ∃ s, Reach ⟨true, true, false, true, true, false, false, 4⟩ steady s ∧ waiting s .deskewed = 2 ∧
    waiting s .imuArrays = 2 := by
  have : ∃ s ∈ run ⟨true, true, false, true, true, false, false, 4⟩ steady slow {},
      waiting s .deskewed = 2 ∧ waiting s .imuArrays = 2 := by decide +kernel
  obtain ⟨s, hs, h⟩ := this
  exact ⟨s, reach_run .init hs, h⟩

/-- C145, for the system as two processes: what is published for the other process waits in a queue of one message until it is sent.
The initial odometry and the biases cannot overflow it. Missing: the other topics between the processes, see `C145_fails_outbox`. -/
theorem C145_outbox_partial (cfg : Cfg) (d : Data) (hr : cfg.reg = true) (s : Node) (h : Reach cfg d s) (t : Topic)
    (ht : t = .initialOdometry ∨ t = .biases) : crosses t = true ∧ waiting s t ≤ publisherSize t := by
  obtain ⟨h1, h2, -⟩ := C145_at_most_one cfg d hr s h
  rcases ht with rfl | rfl
  · exact ⟨rfl, h1⟩
  · exact ⟨rfl, h2⟩

/-! ### Where it fails -/

/-- One more state with its scan-to-scan registration; the mapping and the pressures are left behind. -/
def behind : List Ev := [.sensor, .cloud, .select, .send, .imuStart, .imuFinish, .finish, .filtered, .scan, .register, .biases, .pressure]

/-- The first state and `n` more. -/
def behindAll (n : Nat) : List Ev :=
  [.sensor, .cloud, .select, .send, .initial, .biases, .finish, .filtered, .scan, .pressure] ++ (List.replicate n behind).flatten

/-- C145 fails for the mapping without scan-to-map registration, and for the pressures: eleven clouds, path changes and pressures wait
in queues of ten, so the oldest ones are lost. -/
theorem C145_fails_mapping_behind : ∃ s, Reach ⟨true, true, false, true, false, false, false, 4⟩ steady s ∧
    capacity .mapClouds < waiting s .mapClouds ∧ capacity .mapPaths < waiting s .mapPaths ∧
    capacity .pressures < waiting s .pressures := by
  have : ∃ s ∈ run ⟨true, true, false, true, false, false, false, 4⟩ steady (behindAll 10) {},
      capacity .mapClouds < waiting s .mapClouds ∧ capacity .mapPaths < waiting s .mapPaths ∧
      capacity .pressures < waiting s .pressures := by decide +kernel
  obtain ⟨s, hs, h⟩ := this
  exact ⟨s, reach_run .init hs, h⟩

/-- The events up to the third IMU array, with the clouds of the first two states handled as far as the estimation of normals, and two
pressures; the back end has got the initial odometry only. -/
def unsent : List Ev := [.sensor, .sensor, .sensor, .cloud, .select, .send, .initial, .biases, .finish, .filtered, .pressure, .cloud,
  .select, .send, .finish, .filtered, .pressure, .cloud, .select, .send]

/-- C145 fails for the system as two processes: two IMU arrays, two clouds and two pressures can be published before the first of them
has been sent to the process of the back end, and the publisher keeps one. The first ones are lost then. -/
theorem C145_fails_outbox : ∃ s, Reach ⟨true, true, false, true, true, false, true, 4⟩ steady s ∧ s.scans = 0 ∧ s.done ≤ 2 ∧
    ∀ t ∈ [Topic.imuArrays, .scanClouds, .mapClouds, .pressures], crosses t = true ∧ publisherSize t < waiting s t := by
  have : ∃ s ∈ run ⟨true, true, false, true, true, false, true, 4⟩ steady unsent {}, s.scans = 0 ∧ s.done ≤ 2 ∧
      ∀ t ∈ [Topic.imuArrays, .scanClouds, .mapClouds, .pressures], crosses t = true ∧ publisherSize t < waiting s t := by
    decide +kernel
  obtain ⟨s, hs, h⟩ := this
  exact ⟨s, reach_run .init hs, h⟩

/-- What holds after the loss of the first cloud. -/
structure Lost (s : Node) : Prop where
  opt : s.opt ≤ s.regKey + 1
  bias : s.bias ≤ s.regKey + 1
  regKey : s.regKey ≤ s.regSent
  reg : s.regSent + s.queue = s.scans - 2
  scans : 1 ≤ s.scans
  normals : s.scans ≤ max s.normals 1
  done : s.normals ≤ s.done
  two : s.done ≤ 2

theorem lost_optimise {c : Prop} [Decidable c] {k : Nat} {s : Node} (h : Lost s) (hk : c → k ≤ s.regKey) : Lost (optimiseIf c k s) := by
  unfold optimiseIf
  split
  · rename_i hc
    exact { h with opt := Nat.succ_le_succ (hk hc) }
  · exact h

theorem minKey_le {cfg : Cfg} (hr : cfg.reg = true) (s : Node) : minKey cfg s ≤ s.regKey := by
  unfold minKey
  simp only [hr, if_true]
  split <;> omega

theorem lost_step {cfg : Cfg} {d : Data} (hr : cfg.reg = true) {s s' : Node} {e : Ev} (h : Lost s)
    (hs : stepLost cfg d s e = some s') : Lost s' := by
  obtain ⟨h1, h2, h3, h4, h5, h6, h7, h8⟩ := id h
  cases e <;> simp only [stepLost, step] at hs
  case scan =>
    split at hs
    · rename_i hc
      split at hs
      · obtain rfl := Option.some.inj hs
        exact { h with reg := by show s.regSent + s.queue = 2 - 2; omega, scans := by show 1 ≤ 2; omega,
                       normals := by show 2 ≤ max s.normals 1; omega }
      · cases hs
    · split at hs
      · obtain rfl := Option.some.inj hs
        rename_i hc
        constructor <;> dsimp only <;> omega
      · cases hs
  case track =>
    split at hs
    · cases hs
    · split at hs
      · obtain rfl := Option.some.inj hs
        exact { h with }
      · cases hs
  case stereoStart =>
    split at hs
    · split at hs
      · obtain rfl := Option.some.inj hs
        exact { h with }
      · cases hs
    · cases hs
  case stereoRound =>
    split at hs
    · cases hs
    · split at hs
      · obtain rfl := Option.some.inj hs
        unfold stereoRound
        dsimp only
        split
        · exact { h with }
        · refine lost_optimise (s := _) { h with } ?_
          rintro ⟨hm, -⟩
          have := hm ▸ minKey_le hr _
          exact Int.ofNat_le.1 this
      · cases hs
  case imuFinish =>
    split at hs
    · obtain rfl := Option.some.inj hs
      refine lost_optimise (s := _) { h with } ?_
      rintro ⟨-, hm⟩
      have := minKey_le hr { s with imuRun := false, poses := s.poses + 1 }
      rw [hm] at this
      exact Int.ofNat_le.1 this
    · cases hs
  case register =>
    split at hs
    · obtain rfl := Option.some.inj hs
      rename_i hc
      refine lost_optimise (s := _) { h with
        opt := by show s.opt ≤ s.regKey + 1 + 1; omega
        bias := by show s.bias ≤ s.regKey + 1 + 1; omega
        regKey := by show s.regKey + 1 ≤ s.regSent; omega } (fun _ => Nat.le_refl _)
    · cases hs
  case select =>
    split at hs
    · obtain rfl := Option.some.inj hs
      split
      · exact { h with }
      · exact { h with }
    · cases hs
  all_goals
    split at hs
    · rename_i hc
      obtain rfl := Option.some.inj hs
      first
        | exact { h with }
        | (constructor <;> dsimp only [Node.publishFrame, Node.awaited] at * <;> omega)
    · cases hs

/-- C145: what the loss of a cloud means. If the cloud of the first state is lost between the processes, then whatever happens after
that, the registration publishes nothing, no further state is optimised and no third cloud is deskewed: the system stops. -/
theorem C145_lost_cloud (cfg : Cfg) (d : Data) (hr : cfg.reg = true) (s : Node) (h : Reach cfg d s) (hs : s.scans = 0)
    (hd : s.done ≤ 2) (s' : Node) (h' : LaterLost cfg d { s with scans := 1 } s') : s'.regSent = 0 ∧ s'.opt ≤ 1 ∧ s'.done ≤ 2 := by
  have key : Lost s' := by
    generalize hg : { s with scans := 1 } = g at h'
    induction h' with
    | refl =>
      subst hg
      obtain ⟨hc, ho⟩ := reach_counts (.inr (.inl hr)) h
      have k3 := opt_le_regKey hc ho hr
      have := hc.reg
      have := hc.regKey
      have := hc.bias_le
      have := hc.normals
      constructor <;> dsimp only <;> omega
    | step e _ hst ih => exact lost_step hr ih hst
  obtain ⟨h1, h2, h3, h4, h5, h6, h7, h8⟩ := key
  omega

-- the state of C145_fails_outbox, and the second cloud handled after the loss of the first
example : ∃ s s', Reach ⟨true, true, false, true, true, false, true, 4⟩ steady s ∧ s.scans = 0 ∧ s.done ≤ 2 ∧
    LaterLost ⟨true, true, false, true, true, false, true, 4⟩ steady { s with scans := 1 } s' ∧ s'.scans = 2 := by
  have : ∃ s ∈ run ⟨true, true, false, true, true, false, true, 4⟩ steady unsent {}, s.scans = 0 ∧ s.done ≤ 2 ∧
      ∃ a ∈ stepLost ⟨true, true, false, true, true, false, true, 4⟩ steady { s with scans := 1 } .imuStart,
      ∃ b ∈ stepLost ⟨true, true, false, true, true, false, true, 4⟩ steady a .imuFinish,
      ∃ c ∈ stepLost ⟨true, true, false, true, true, false, true, 4⟩ steady b .scan, c.scans = 2 := by decide +kernel
  obtain ⟨s, hs, h1, h2, a, ha, b, hb, c, hc, h3⟩ := this
  exact ⟨s, c, reach_run .init hs, h1, h2, .step _ (.step _ (.step _ (.refl _) ha) hb) hc, h3⟩

/-- Twelve stereo frames before the first state; their tracking is not delayed. -/
def early : List Ev := [.frame 0, .track, .stereoStart] ++ (List.replicate 11 [Ev.frame 1, Ev.track]).flatten

/-- C145 fails for stereo features: those of the first frame wait for a state, and the others queue up behind them. No callback but
that one could run. -/
theorem C145_fails_early_features : ∃ s, Reach ⟨true, true, true, true, true, false, false, 5⟩ steady s ∧
    Quiet ⟨true, true, true, true, true, false, false, 5⟩ steady s ∧ capacity .features < waiting s .features := by
  have : ∃ s ∈ run ⟨true, true, true, true, true, false, false, 5⟩ steady early {},
      s = { stereoRun := some 0, frames := 0 :: List.replicate 11 1, features := List.replicate 11 1 } := by decide +kernel
  obtain ⟨s, hs, h⟩ := this
  refine ⟨s, reach_run .init hs, ?_, ?_⟩
  · subst h
    intro e he
    cases e <;> first | rfl | cases he
  · subst h
    decide

end Schedule

namespace Sync

variable {M : Type}

/-- C145: a subscription hands on messages in the order of arrival, each at most as often as it arrived, whatever its capacity and
however the threads take messages. -/
theorem C145_in_order (cap : Nat) (es : List (Ev M)) : (Subscription.after cap es).handled.Sublist (arrived es) :=
  (List.sublist_append_left _ _).trans (sub_sublist cap es)

/-- C145: if never more messages wait than the capacity, none is lost: those handled and those waiting are all that arrived. -/
theorem C145_lossless (cap : Nat) (es : List (Ev M))
    (h : ∀ p, p <+: es → (arrived p).length ≤ (Subscription.after cap p).handled.length + cap) :
    (Subscription.after cap es).handled ++ (Subscription.after cap es).queue = arrived es := by
  induction es using List.reverseRecOn with
  | nil => rfl
  | append_singleton es e ih =>
    have ih := ih (fun p hp => h p (hp.trans (List.prefix_append _ _)))
    have hl := h _ (List.prefix_refl _)
    rw [arrived_snoc, sub_snoc] at hl ⊢
    cases e with
    | arrive m =>
      have hl' : (arrived es ++ [m]).length ≤ (Subscription.after cap es).handled.length + cap := hl
      rw [← ih] at hl' ⊢
      simp only [List.length_append, List.length_singleton] at hl'
      unfold Subscription.step push
      dsimp only
      rw [if_neg (by omega), List.append_assoc]
    | take =>
      unfold Subscription.step
      dsimp only
      rw [List.append_nil, ← ih]
      split
      · rfl
      · rename_i m rest hq
        dsimp only
        rw [hq, List.append_assoc]
        rfl

example : (∀ p, p <+: [Ev.arrive 1, .arrive 2, .take, .arrive 3] →
    (arrived p).length ≤ (Subscription.after 2 p).handled.length + 2) ∧
    (Subscription.after 2 [Ev.arrive 1, .arrive 2, .take, .arrive 3]).handled = [1] := by
  have : ∀ p ∈ [Ev.arrive 1, .arrive 2, .take, .arrive 3].inits,
      (arrived p).length ≤ (Subscription.after 2 p).handled.length + 2 := by decide
  exact ⟨fun p hp => this p ((List.mem_inits _ _).2 hp), by decide⟩

/-- C145 fails for a queue that is full: the oldest message is lost. -/
theorem C145_fails_full : (Subscription.after 2 [Ev.arrive 1, .arrive 2, .arrive 3, .take]).handled = [2] := by decide

end Sync

end Serpent
