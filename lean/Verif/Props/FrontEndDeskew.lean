import Verif.Props.FrontEnd

/-!
# C75, C77: processing of a covered sweep
-/

namespace Serpent

namespace FrontEnd

open Utils

variable {A K : Type} [Field K]

/-- While the callback is about to deskew, measurements up to the end of the sweep have been received; before
initialisation no measurement has been removed. The biases are those of the previous state or of a later one. -/
structure DI (s : FE A K) : Prop where
  sweep : ∀ msg t, s.phase = .deskew msg t → ∃ prev, s.prevCloud = some prev ∧ prev.stop ≤ lastStamp s.ghost.imu
  all : s.initialised = false → s.imuBuffer = s.ghost.imu
  bias : ∀ msg t, s.phase = .deskew msg t → s.prevState ≤ s.biasStamp
  first : ∀ msg t, s.phase = .init msg t → t ≤ lastStamp s.ghost.imu

omit [Field K] in
theorem lastStamp_append (l : List (Stamped A)) (m : Stamped A) (h : ∀ x ∈ l, x.stamp < m.stamp) (h0 : 0 < m.stamp) :
    lastStamp l ≤ lastStamp (l ++ [m]) := by
  have e : lastStamp (l ++ [m]) = m.stamp := by simp [lastStamp]
  rw [e]
  rcases List.eq_nil_or_concat l with rfl | ⟨l', x, rfl⟩
  · simp [lastStamp]; omega
  · have := h x (by simp)
    simp [lastStamp]; omega

theorem di_move (cfg : Cfg A K) (s s' : FE A K) (hi : II s) (h : DI s) (hm : Move cfg s s') : DI s' := by
  cases hm with
  | imuQuiet m _ _ h0 hlt =>
    refine ⟨fun msg t hp => ?_, fun hin => by simp only; rw [h.all hin], h.bias,
      fun msg t hp => le_trans (h.first msg t hp) (lastStamp_append _ _ hlt h0)⟩
    obtain ⟨prev, h1, h2⟩ := h.sweep msg t hp
    exact ⟨prev, h1, le_trans h2 (lastStamp_append _ _ hlt h0)⟩
  | imuOdometry m p _ _ h0 hlt =>
    refine ⟨fun msg t hp => ?_, fun hin => by simp only [FE.emit]; rw [h.all hin], h.bias,
      fun msg t hp => le_trans (h.first msg t hp) (lastStamp_append _ _ hlt h0)⟩
    obtain ⟨prev, h1, h2⟩ := h.sweep msg t hp
    exact ⟨prev, h1, le_trans h2 (lastStamp_append _ _ hlt h0)⟩
  | optimisedA t m _ _ hb _ => exact ⟨h.sweep, h.all, fun msg t' hp => by have := h.bias msg t' hp; simp only; omega, h.first⟩
  | optimisedB p last _ _ => exact ⟨h.sweep, h.all, h.bias, h.first⟩
  | barometer p _ _ ht =>
    obtain ⟨bb, bt, ps, rfl, _⟩ := ht.frame
    exact ⟨h.sweep, h.all, h.bias, h.first⟩
  | stereoQuiet t _ _ => exact ⟨h.sweep, h.all, h.bias, h.first⟩
  | stereoSent t _ _ => exact ⟨h.sweep, h.all, h.bias, h.first⟩
  | cloudFirst msg hp hc' h0 hlt => exact ⟨fun msg t hq => by simp only at hq; rw [hp] at hq; simp at hq, h.all, h.bias, h.first⟩
  | cloudNext msg prev hp hc' h0 hlt => exact ⟨fun msg t hq => by simp at hq, h.all, fun msg t hq => by simp at hq, fun msg t hq => by simp at hq⟩
  | selectWait msg prev hp hc' _ _ => exact ⟨h.sweep, h.all, h.bias, h.first⟩
  | selectFrame msg prev f rest hp hc' _ hf hr hle hlt _ =>
    split
    · exact ⟨fun msg t hq => by simp [FE.emit] at hq, h.all, fun msg t hq => by simp [FE.emit] at hq,
      fun msg t hq => by simp [FE.emit] at hq⟩
    · exact ⟨fun msg t hq => by simp at hq, h.all, fun msg t hq => by simp at hq, fun msg t hq => by simp at hq⟩
  | selectStart msg prev l hp hc' hl _ => exact ⟨fun msg t hq => by simp at hq, h.all, fun msg t hq => by simp at hq, fun msg t hq => by simp at hq⟩
  | s2s msg prev t first others m ms hp hc' hin hb hle hsel =>
    exact ⟨fun msg t hq => by simp [FE.emit] at hq, fun hf => by simp only [FE.emit] at hf; rw [hin] at hf; simp at hf,
      fun msg t hq => by simp [FE.emit] at hq, fun msg t hq => by simp [FE.emit] at hq⟩
  | initWait msg prev t hp hc' hin hwt => exact ⟨fun msg t hq => by simp at hq, h.all, fun msg t hq => by simp at hq,
      fun msg' t' hq => by simp at hq; simp only; rw [← hi.last]; omega⟩
  | initial msg prev t m hp hc' hint => exact ⟨fun msg t hq => by simp [FE.emit] at hq, h.all, fun msg t hq => by simp [FE.emit] at hq,
      fun msg t hq => by simp [FE.emit] at hq⟩
  | biasKnown msg prev t hp hc' hb hbs hle =>
    exact ⟨fun msg' t' _ => ⟨prev, hc', by simp only; rw [← hi.last]; exact hle⟩, h.all, fun _ _ _ => by simp only; omega,
      fun msg t hq => by simp at hq⟩
  | deskew msg prev t hp hc' => exact ⟨fun msg t hq => by simp [FE.emit] at hq, h.all, fun msg t hq => by simp [FE.emit] at hq,
      fun msg t hq => by simp [FE.emit] at hq⟩
  | finishBaro msg prev t hp hc' _ ht => exact ⟨fun msg t hq => by simp at hq, fun hf => by simp at hf, fun msg t hq => by simp at hq, fun msg t hq => by simp at hq⟩
  | finish msg prev t hp hc' _ => exact ⟨fun msg t hq => by simp at hq, fun hf => by simp at hf, fun msg t hq => by simp at hq, fun msg t hq => by simp at hq⟩

theorem di (cfg : Cfg A K) (s : FE A K) (hr : Reach cfg s) : DI s :=
  Reach.induct (P := fun s => DI s) ⟨fun _ _ h => by simp at h, fun _ => rfl, fun _ _ h => by simp at h, fun _ _ h => by simp at h⟩
    (fun s s' hr h hm => di_move cfg s s' (ii cfg s hr) h hm) hr

omit [Field K] in
theorem two_of_span {l : List (Stamped A)} {first : Stamped A} (hf : l.head? = some first) {t : Int}
    (h1 : first.stamp < t) (h2 : t ≤ lastStamp l) : 2 ≤ l.length := by
  match l, hf with
  | [x], hf =>
    have : x = first := by simpa using hf
    subst this
    simp [lastStamp] at h2; omega
  | _ :: _ :: _, _ => simp

omit [Field K] in
theorem integrate_covered (strict : Bool) (l : List (Stamped A)) (start stop : Int) (ho : StrictlyOrdered l)
    (first : Stamped A) (hf : l.head? = some first) (hfs : first.stamp ≤ start) (hss : start ≤ stop)
    (hlast : stop ≤ lastStamp l) (hne : ∀ m ∈ l, m.stamp ≠ stop) :
    ∃ p, integrateImu (record strict) l start stop [] = .ok p := by
  by_cases he : start = stop
  · subst he; exact ⟨_, C28_nothing _ _ _ _⟩
  · have hl := two_of_span hf (t := stop) (by omega) hlast
    have hh : ∀ m, l.head? = some m → m.stamp ≤ start := by
      intro m hm; rw [hf] at hm; rw [← Option.some.inj hm]; exact hfs
    cases strict with
    | true => exact ⟨_, C28_strict_partial l start stop ho hl hh (by omega) hne⟩
    | false =>
      have h := C28_throws_iff l start stop (ho.imp (fun h => le_of_lt h)) hss
      refine ⟨_, h.2 ?_ he⟩
      intro hth
      obtain ⟨_, h3 | ⟨m, hm, hlt⟩⟩ := h.1.1 hth
      · omega
      · have := hh m hm; omega

/-- C75 (what holds). When the callback has come to the deskewing of a sweep, integration succeeds and the deskewed
pointcloud is published, provided no IMU measurement is stamped exactly like the start or the end of the sweep and, for the
first sweep, the first measurement is not later than the start of the sweep. -/
theorem C75_covered_partial (cfg : Cfg A K) (s : FE A K) (hr : Reach cfg s) {msg prev : Cloud} {t : Int}
    (hp : s.phase = .deskew msg t) (hc : s.prevCloud = some prev) (hsw : 0 ≤ prev.sweep)
    (hne : ∀ m ∈ s.ghost.imu, m.stamp ≠ prev.start ∧ m.stamp ≠ prev.stop)
    (hfirst : s.initialised = false → ∃ m, s.ghost.imu.head? = some m ∧ m.stamp ≤ prev.start) :
    (deskewCloud cfg msg prev t s).1 = .ok () ∧ (deskewCloud cfg msg prev t s).2.pubs = s.pubs ++ [.cloud (t / 1000)] := by
  have hci := ci cfg s hr
  have hii := ii cfg s hr
  have hdi := di cfg s hr
  have hso : StrictlyOrdered s.imuBuffer := hii.ordered.sublist hii.suffix.sublist
  obtain ⟨prev', h1, hstop⟩ := hdi.sweep msg t hp
  rw [hc] at h1
  obtain rfl := Option.some.inj h1
  have hne' : ∀ m ∈ s.imuBuffer, m.stamp ≠ prev.start ∧ m.stamp ≠ prev.stop :=
    fun m hm => hne m (hii.suffix.subset hm)
  have hle : prev.start ≤ prev.stop := by unfold Cloud.stop; omega
  have hlastb : s.imuBuffer ≠ [] → lastStamp s.imuBuffer = lastStamp s.ghost.imu := by
    intro hb
    obtain ⟨pre, hpre⟩ := hii.suffix
    rw [← hpre]
    unfold lastStamp
    rw [List.getLast?_append]
    cases hg : s.imuBuffer.getLast? with
    | none => exact absurd (List.getLast?_eq_none_iff.1 hg) hb
    | some x => rfl
  have hpo := hci.phaseOk
  rw [hp] at hpo
  obtain ⟨cs, prev', e1, e2, e3, e4⟩ := hpo
  rw [hc] at e1
  obtain rfl := Option.some.inj e1
  unfold deskewCloud
  dsimp only
  by_cases hin : s.initialised = true
  · rw [if_pos hin]
    rw [if_pos hin] at e4
    obtain ⟨ss, e4⟩ := e4
    obtain ⟨first, hf, hfs⟩ := hii.front (by rw [e4]; simp)
    have hb : s.imuBuffer ≠ [] := by intro h0; rw [h0] at hf; simp at hf
    have hlt : s.prevState < prev.start := by
      have hlen : cs.length = ss.length + 1 := by rw [e4] at e3; simp at e3; omega
      obtain ⟨c, d, _, q2, _, q4⟩ := hci.placed ss.length s.prevState (by rw [e4]; simp)
      rw [e2, ← hlen] at q2
      have : d = prev := by simpa using q2.symm
      rw [← this]; exact q4
    obtain ⟨p1, hp1⟩ := integrate_covered cfg.strict s.imuBuffer s.prevState prev.start hso first hf hfs (le_of_lt hlt)
      (by rw [hlastb hb]; omega) (fun m hm => (hne' m hm).1)
    obtain ⟨p2, hp2⟩ := integrate_covered cfg.strict s.imuBuffer prev.start prev.stop hso first hf (by omega) hle
      (by rw [hlastb hb]; omega) (fun m hm => (hne' m hm).2)
    rw [hp1, hp2]
    exact ⟨rfl, rfl⟩
  · rw [if_neg hin]
    have hfalse : s.initialised = false := by simpa using hin
    obtain ⟨first, hf, hfs⟩ := hfirst hfalse
    rw [← hdi.all hfalse] at hf
    have hb : s.imuBuffer ≠ [] := by intro h0; rw [h0] at hf; simp at hf
    obtain ⟨p2, hp2⟩ := integrate_covered cfg.strict s.imuBuffer prev.start prev.stop hso first hf hfs hle
      (by rw [hlastb hb]; omega) (fun m hm => (hne' m hm).2)
    rw [hp2]
    exact ⟨rfl, rfl⟩

/-- A state of the demonstration meets the hypotheses (second sweep). -/
example : (runEvs demoCfg (demoEvs.take 22) {}).map (fun s => (s.phase, s.prevCloud, s.initialised,
    s.ghost.imu.map (fun m => m.stamp))) =
    some (.deskew { usec := 131, sweep := 5000 } 121000, some { usec := 121, sweep := 5000 }, true,
      [100000, 110000, 120000, 130000]) := by decide +kernel

/-! ### C77 -/

theorem cloud_sent (cfg : Cfg A K) (s s' : FE A K) (u : Int) (hm : Move cfg s s') (hp : s'.pubs = s.pubs ++ [.cloud u]) :
    ∃ msg t, s.phase = .deskew msg t ∧ u = t / 1000 := by
  cases hm with
  | deskew msg prev t hp' hc' => exact ⟨msg, t, hp', by simpa [FE.emit] using hp.symm⟩
  | barometer p _ _ ht =>
    obtain ⟨bb, bt, ps, rfl, rfl | ⟨_, rfl⟩⟩ := ht.frame <;> simp at hp
  | finishBaro msg prev t hp' hc' _ ht =>
    obtain ⟨bb, bt, ps, rfl, rfl | ⟨_, rfl⟩⟩ := ht.frame <;> simp at hp
  | selectFrame msg prev f rest hp' hc' _ hf hr hle hlt _ => split at hp <;> simp [FE.emit] at hp
  | _ => simp [FE.emit] at hp

/-- C77. A deskewed pointcloud is published for the state that was sent last, stamped like it (in microseconds), and only
when IMU measurements reach the end of the sweep and the biases optimised for the state before it (or, for the first two
sweeps, for the first state) have been received. -/
theorem C77_waits (cfg : Cfg A K) (s s' : FE A K) (u : Int) (ev : Ev A K) (hr : Reach cfg s) (ha : Admissible ev s)
    (hs : step cfg ev s = some (.ok (), s')) (hp : s'.pubs = s.pubs ++ [.cloud u]) :
    (∃ cs prev msg, s.ghost.clouds = cs ++ [prev, msg] ∧ cs.length + 1 = s.ghost.states.length ∧
      (0 < prev.sweep → ∃ m ∈ s.ghost.imu, prev.usec * 1000 + prev.sweep ≤ m.stamp)) ∧
    (∃ t, s.ghost.states.getLast? = some t ∧ u * 1000 = t) ∧
    (∀ ss a t, s.ghost.states = ss ++ [a, t] → a ≤ s.biasStamp) ∧
    (∀ t, s.ghost.states = [t] → t ≤ s.biasStamp) := by
  obtain ⟨msg, t, hph, hu⟩ := cloud_sent cfg s s' u (move_of_step cfg ev s s' ha hs) hp
  have hdi := di cfg s hr
  have hci := ci cfg s hr
  obtain ⟨prev, hpc, hstop⟩ := hdi.sweep msg t hph
  have hb := hdi.bias msg t hph
  have hpo := hci.phaseOk
  rw [hph] at hpo
  obtain ⟨cs, prev', e1, e2, e3, e4⟩ := hpo
  rw [hpc] at e1
  obtain rfl := Option.some.inj e1
  have hpos : 0 < prev.start := hci.pos prev (by rw [e2]; simp)
  have hlast : s.ghost.states.getLast? = some t := by
    split at e4
    · obtain ⟨ss, e4⟩ := e4; rw [e4]; simp
    · rw [e4.1]; simp
  have hw : t % 1000 = 0 := hci.whole t (List.mem_of_getLast? hlast)
  refine ⟨⟨cs, prev, msg, e2, e3.symm, fun hsw => ?_⟩, ⟨t, hlast, by omega⟩, ?_, ?_⟩
  · unfold Cloud.stop Cloud.start at hstop
    unfold Cloud.start at hpos
    unfold lastStamp at hstop
    cases hg : s.ghost.imu.getLast? with
    | none => rw [hg] at hstop; simp at hstop; omega
    | some m => rw [hg] at hstop; exact ⟨m, List.mem_of_getLast? hg, hstop⟩
  · intro ss a t' he
    split at e4
    · obtain ⟨ss', e4⟩ := e4
      rw [he] at e4
      have h2 : [a, t'] = [s.prevState, t] := (List.append_inj' e4 rfl).2
      have : a = s.prevState := by simpa using (List.cons.inj h2).1
      omega
    · have := congrArg List.length (he.symm.trans e4.1); simp at this
  · intro t' he
    split at e4
    · obtain ⟨ss', e4⟩ := e4
      have := congrArg List.length (he.symm.trans e4); simp at this
    · rw [he] at e4
      have h2 : t' = t := by simpa using e4.1
      omega

/-- The demonstration publishes deskewed pointclouds. -/
example : (runEvs demoCfg demoEvs {}).map (fun s => s.pubs.filterMap (fun p => match p with | .cloud u => some u | _ => none)) =
    some [112, 121] := by decide +kernel

/-! ### C79 -/

/-- C79. Creating the first state succeeds whenever a measurement earlier than its time has been received: the callback has
waited for one that is not earlier. -/
theorem C79_first_state {Q : Type} [DecidableEq Q] [LinearOrder K] [IsStrictOrderedRing K] (zeroQ : Q)
    (slerp : K → Q → Q → Q) (cfg : Cfg (ImuData K Q) K) (hcfg : cfg.interp = interpolateImu zeroQ slerp)
    (s : FE (ImuData K Q) K) (hr : Reach cfg s) {msg : Cloud} {t : Int} (hp : s.phase = .init msg t)
    (hb : ∃ m ∈ s.ghost.imu, m.stamp < t) :
    ∃ s', step cfg .go s = some (.ok (), s') ∧ s'.pubs = s.pubs ++ [.initial t] := by
  have hci := ci cfg s hr
  have hii := ii cfg s hr
  have hdi := di cfg s hr
  have hpo := hci.phaseOk
  rw [hp] at hpo
  obtain ⟨cs, prev, e1, e2, e3, e4, e5, _⟩ := hpo
  have hbuf := hdi.all e5
  have hlast := hdi.first msg t hp
  have hso : StrictlyOrdered s.imuBuffer := hii.ordered.sublist hii.suffix.sublist
  have hord : Ordered s.imuBuffer := hso.imp (fun h => le_of_lt h)
  rw [← hbuf] at hb hlast
  obtain ⟨h1, h2, h3⟩ := C27_interpolated zeroQ slerp s.imuBuffer hord t
  have hnt : interpolatedImu (interpolateImu zeroQ slerp) s.imuBuffer t ≠ .throws := by
    rw [Ne, h1, not_not]
    obtain ⟨m, hm, hlt⟩ := hb
    cases hl : s.imuBuffer with
    | nil => rw [hl] at hm; simp at hm
    | cons x l =>
      have hx : x.stamp < t := by
        rw [hl] at hm hso
        rcases List.mem_cons.1 hm with rfl | hm
        · exact hlt
        · have := (List.pairwise_cons.1 hso).1 m hm; omega
      have h2l := two_of_span (l := s.imuBuffer) (first := x) (by rw [hl]; rfl) hx hlast
      rw [hl] at h2l hlast
      cases l with
      | nil => simp at h2l
      | cons y rest =>
        refine ⟨x, y, rest, rfl, le_of_lt hx, (y :: rest).getLast (by simp), List.getLast_mem (by simp), ?_⟩
        rw [lastStamp, List.getLast?_cons_cons, List.getLast?_eq_getLast_of_ne_nil (by simp)] at hlast
        exact hlast
  cases hint : interpolatedImu (interpolateImu zeroQ slerp) s.imuBuffer t with
  | throws => exact absurd hint hnt
  | ub => exact absurd hint h2
  | ok m =>
    have hst : step cfg .go s = some (publishInitial cfg msg t s) := by unfold step goStep; rw [hp, e1]
    unfold publishInitial at hst
    rw [hcfg, hint] at hst
    exact ⟨_, hst, rfl⟩

/-- The demonstration creates its first state. -/
example : (runEvs demoCfg demoEvs {}).map (fun s => s.pubs.filterMap (fun p => match p with | .initial t => some t | _ => none)) =
    some [112000] := by decide +kernel

end FrontEnd

end Serpent
