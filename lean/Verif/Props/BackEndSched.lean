import Verif.Lemmas.BackEndReg

/-!
# Properties C18, C20 and C21 of the running back end

The statements are about `NodeReach` and `NodeSeen`: all executions of the node, that is all interleavings of the sections
between the sleeps of its callbacks, for all messages.
-/

namespace Serpent

namespace BackEnd

open Graph M

variable {Val D O C I : Type}

/-! ### C20 -/

/-- **C20.** For every interleaving of the callbacks, for every configuration, at any time (also when the last callback
ended with an exception): `optimise` was called for the keys `0, 1, 2, …` in this order, each once, and each call for a key
above 0 was made when the graph had the state, the time stamp and for each enabled sensor its part of the problem. -/
theorem C20_schedule {er : EndRead} {api : Api Val D O C I} {cfg : Cfg} {o : O} {s : Sys Val D O}
    (h : NodeSeen er api cfg o s) :
    (∃ n : Nat, s.be.calls.map Prod.fst = (List.range n).map Int.ofNat) ∧
    ∀ c ∈ s.be.calls, 0 < c.1 → Complete cfg c.2 c.1 := by
  obtain ⟨n, h1, h2, -⟩ := nodeSeen_good h
  exact ⟨⟨_, h1⟩, h2⟩

/-- **C20, progress of the keys.** Between two sections of a node that got its initial odometry, the last optimised key `o`
is at most one behind the newest state, and no enabled sensor is behind `o` (the first stereo frame excepted). -/
theorem C20_keys {er : EndRead} {api : Api Val D O C I} {cfg : Cfg} {o : O} {s : Sys Val D O}
    (h : NodeReach er api cfg o s) (hs : s.started = true) :
    ∃ i, key s.be.isam.gm "imu" 0 = .ok i ∧ (i = s.be.isam.optKey ∨ i = s.be.isam.optKey + 1) ∧
      (cfg.reg = true → ∃ r, key s.be.isam.gm "reg" 0 = .ok r ∧ s.be.isam.optKey ≤ r ∧ r ≤ i) ∧
      (cfg.stereo = true → ∃ t, key s.be.isam.gm "stereo" 0 = .ok t ∧
        (s.be.isam.optKey ≤ t ∨ (s.be.isam.optKey = 0 ∧ t = -1)) ∧ t ≤ i) := by
  obtain ⟨p, o', hn⟩ := nodeReach_inv h
  have hs := hn.side hs
  obtain ⟨hg, ho, -⟩ := hn.graph
  rw [ho]
  refine ⟨p.i, by rw [key_imu hg]; simp, hs.gap, fun hc => ⟨p.r, by rw [key_reg hg hc]; simp, hs.regLe hc⟩, fun hc =>
    ⟨p.t, by rw [key_stereo hg hc]; simp, hs.stereoLe hc⟩⟩

/-! ### C18 -/

/-- **C18 fails.** In every reachable state, a registration message with a valid covariance is rejected with an exception,
and no factor is added. -/
theorem C18_fails_valid_rejected {er : EndRead} {api : Api Val D O C I} {cfg : Cfg} {o : O} {s : Sys Val D O}
    (h : NodeReach er api cfg o s) (hc : cfg.reg = true) (msg : RegMsg D C) (hv : api.validCov msg.cov = true) :
    ∃ s', nodeStep er api cfg (.reg msg) s = some (.throws, s') ∧
      s'.be.isam.gm.factors = s.be.isam.gm.factors := by
  obtain ⟨p, o', hn⟩ := nodeReach_inv h
  obtain ⟨hg, -, -⟩ := hn.graph
  rcases addRegistrationFactor_cases api msg { s.be with locked := true } hg.vinv with
    ⟨k, p, raw0, raw1, hk, ht, hp, h0, h1, hv', hz, hr⟩ | hr
  · rw [hv] at hv'; cases hv'
  · simp only [nodeStep, hc, if_true, sect, registrationCallback, guarded, registrationBody]
    rw [bind_run, hr]
    refine ⟨_, rfl, ?_⟩
    simp only
    unfold increment
    split <;> rfl

/-- **C18, what holds.** When the node accepts a registration message, exactly one factor was added to the graph, between
the poses of the previous and the new registration key and carrying the message's transform. The message was the one for the
time stamp of the new key. (Missing: the messages accepted are those with an *invalid* covariance.) -/
theorem C18_accepted_partial {er : EndRead} {api : Api Val D O C I} {cfg : Cfg} {o : O} {s s' : Sys Val D O}
    (h : NodeReach er api cfg o s) (msg : RegMsg D C) (hr : nodeStep er api cfg (.reg msg) s = some (.ok (), s')) :
    ∃ k, key s.be.isam.gm "reg" 1 = .ok k ∧ timestamp s.be.isam.gm k = .ok msg.stamp ∧ api.validCov msg.cov = false ∧ api.zeroSigma msg.cov = false ∧
      ∀ j, factorsAt s'.be.isam.gm j = factorsAt s.be.isam.gm j ++
        (if j = k then [⟨.plain .betweenPose, [keyOf .X (k - 1), keyOf .X k], msg.transform⟩] else []) := by
  have hreach := h.step hr
  obtain ⟨p, o', hn⟩ := nodeReach_inv h
  obtain ⟨hg, ho, hcalls⟩ := hn.graph
  have hc : cfg.reg = true := by
    by_contra hc
    simp [nodeStep, hc] at hr
  have hst : s.started = true := by
    cases hst : s.started with
    | true => rfl
    | false =>
      have ht := tGuarded (fun _ _ h => h) (fun _ _ _ h => h) (fun _ _ h => h)
        (tRegistration0 (cfg := cfg) (z := api.zero) er api msg hc (hn.side0 hst))
      simp only [nodeStep, hc, if_true] at hr
      rcases sect_cases ht hn.graph hr with ⟨-, a, b, hb, -⟩ | ⟨hr, -⟩
      · exact hb.elim
      · exact absurd rfl hr
  simp only [nodeStep, hc, if_true, sect, registrationCallback, guarded] at hr
  rcases hb : registrationBody er api cfg msg { s.be with locked := true } with ⟨x, b⟩
  rw [hb] at hr
  have hx : x = .ok () := by
    cases x with
    | ok u => rfl
    | throws => simp at hr
    | ub => simp at hr
  subst hx
  simp only [Option.some.injEq, Prod.mk.injEq, true_and, id] at hr
  rcases ha : addRegistrationFactor api msg { s.be with locked := true } with ⟨y, s1⟩
  have hy : y = .ok () := by
    cases y with
    | ok u => rfl
    | throws => simp only [registrationBody] at hb; rw [bind_run, ha] at hb; simp at hb
    | ub => simp only [registrationBody] at hb; rw [bind_run, ha] at hb; simp at hb
  subst hy
  obtain ⟨k, pp, hk, ht, -, hv, hz, -, hfac⟩ := reg_accepted api msg { s.be with locked := true } _ hg.vinv hg.sorted ha
  have hfs : s'.be.isam.gm.factors = s1.isam.gm.factors := by
    have := registrationBody_factors (er := er) (cfg := cfg) ha
    rw [hb] at this
    rw [← hr]
    exact this
  refine ⟨k, hk, ht, hv, hz, ?_⟩
  intro j
  rw [← hfac j]
  simp only [factorsAt, hfs]

/-- **C18, what holds.** When the node rejects a registration message, the graph has the same factors and values as
before, and nothing new for the optimiser. -/
theorem C18_rejected_partial {er : EndRead} {api : Api Val D O C I} {cfg : Cfg} {o : O} {s : Sys Val D O}
    (h : NodeReach er api cfg o s) (msg : RegMsg D C) (s' : BE Val D O)
    (hr : addRegistrationFactor api msg s.be = (.throws, s')) :
    s'.isam.gm.factors = s.be.isam.gm.factors ∧ s'.isam.gm.newFactors = s.be.isam.gm.newFactors ∧
      s'.isam.gm.values = s.be.isam.gm.values := by
  obtain ⟨p, o', hn⟩ := nodeReach_inv h
  exact reg_rejected api msg _ _ hn.graph.1.vinv hr

/-! ### C21 -/

/-- The random walk factor between the barometer biases `j - 1` and `j`. -/
def isWalk (j : Int) (x : Factor D) : Bool := x.kind == .plain .baroBias && x.vars == [keyOf .P (j - 1), keyOf .P j]

/-- **C21.** In every reachable state, for every pressure factor (it uses the pose and the barometer bias of its key `k`):
all biases up to `k` have a value, and any two consecutive ones up to `k` are connected by exactly one random walk
factor. -/
theorem C21_bias_chain {er : EndRead} {api : Api Val D O C I} {cfg : Cfg} {o : O} {s : Sys Val D O}
    (h : NodeReach er api cfg o s) {k : Int} {x : Factor D} (hx : x ∈ factorsAt s.be.isam.gm k)
    (hb : x.kind = .plain .baro) :
    0 ≤ k ∧ x.vars = [keyOf .X k, keyOf .P k] ∧
    (∀ j, 0 ≤ j → j ≤ k → ∃ v, barometerBias s.be.isam.gm j = .ok v) ∧
    (∀ j, 1 ≤ j → j ≤ k → ((allFactors s.be.isam.gm).filter (isWalk j)).length = 1) := by
  obtain ⟨p, o', hn⟩ := nodeReach_inv h
  obtain ⟨hg, -, -⟩ := hn.graph
  obtain ⟨hv, h0, hlt, -⟩ := hg.baro.press k x hx hb
  obtain ⟨c, hc⟩ : ∃ c, BaroSide c p.ba := by
    have := hn.baro
    cases hs : s.baro with
    | none => rw [hs] at this; exact ⟨_, this⟩
    | some n => rw [hs] at this; exact ⟨_, this.2.2⟩
  obtain ⟨c0, c1, c2, c3, -, -⟩ := hc
  refine ⟨h0, hv, ?_, ?_⟩
  · intro j hj hjk
    obtain ⟨raw, hr, hcon⟩ := hasVal_ok ((hg.baro.vals j).2 ⟨hj, by omega⟩)
    unfold barometerBias getVal
    rw [hr]
    unfold OMap.contains at hcon
    obtain ⟨v, hv⟩ := Option.isSome_iff_exists.1 hcon
    exact ⟨v, by simp [hv]⟩
  · intro j hj hjk
    have hwalk : ∀ i, (factorsAt s.be.isam.gm i).filter (isWalk j) =
        ((factorsAt s.be.isam.gm i).filter (fun x => x.kind == .plain .baroBias)).filter
          (fun x => x.vars == [keyOf .P (j - 1), keyOf .P j]) := by
      intro i
      rw [List.filter_filter]
      congr 1
      funext x
      simp only [isWalk, Bool.and_comm]
    rw [allFactors_filter hg.sorted _ j, hwalk, hg.baro.walk, if_pos (by omega)]
    · simp
    · intro i hi
      rw [hwalk, hg.baro.walk]
      split
      · rename_i h1
        have : keyOf .P i ≠ keyOf .P j := fun e => hi (keyOf_inj (by omega) (by omega) e)
        simp [this]
      · rfl

/-- **C21, prior.** As soon as there is a pressure factor, the graph has exactly one prior for a barometer bias, and that is
on the first bias used by a pressure factor. -/
theorem C21_prior {er : EndRead} {api : Api Val D O C I} {cfg : Cfg} {o : O} {s : Sys Val D O}
    (h : NodeReach er api cfg o s) {k : Int} (hk : HasFactor s.be.isam.gm .baro k) :
    ∃ first, HasFactor s.be.isam.gm .baro first ∧ (∀ j, HasFactor s.be.isam.gm .baro j → first ≤ j) ∧
      ((allFactors s.be.isam.gm).filter (fun x => x.kind == .plain .priorBaro)).map (fun x => x.vars) =
        [[keyOf .P first]] := by
  obtain ⟨p, o', hn⟩ := nodeReach_inv h
  obtain ⟨hg, -, -⟩ := hn.graph
  obtain ⟨x, hx, hb⟩ := hk
  obtain ⟨-, -, -, f0, hf, -⟩ := hg.baro.press k x hx hb
  obtain ⟨c, hc⟩ : ∃ c, BaroSide c p.ba := by
    have := hn.baro
    cases hs : s.baro with
    | none => rw [hs] at this; exact ⟨_, this⟩
    | some n => rw [hs] at this; exact ⟨_, this.2.2⟩
  obtain ⟨-, -, -, -, c4, -⟩ := hc
  have hpf : p.ba.pf = some f0 := c4.trans hf
  refine ⟨f0, (hg.baro.first f0 hf).1, ?_, ?_⟩
  · rintro j ⟨y, hy, hyb⟩
    obtain ⟨-, -, -, f1, hf1, hle⟩ := hg.baro.press j y hy hyb
    rw [hf] at hf1
    cases hf1
    exact hle
  · rw [allFactors_filter hg.sorted _ f0, hg.baro.prior, if_pos hpf]
    intro i hi
    have := hg.baro.prior i
    rw [if_neg (by rw [hpf]; simpa using fun e => hi e.symm)] at this
    exact List.map_eq_nil_iff.1 this

/-- **C21, nothing superfluous.** Without a pressure factor, no barometer bias has a value, and the graph has no factor on
barometer biases. -/
theorem C21_only {er : EndRead} {api : Api Val D O C I} {cfg : Cfg} {o : O} {s : Sys Val D O}
    (h : NodeReach er api cfg o s) (hnone : ∀ k, ¬ HasFactor s.be.isam.gm .baro k) :
    (∀ j, ¬ ∃ v, barometerBias s.be.isam.gm j = .ok v) ∧
    (allFactors s.be.isam.gm).filter (fun x => x.kind == .plain .baroBias || x.kind == .plain .priorBaro) = [] := by
  obtain ⟨p, o', hn⟩ := nodeReach_inv h
  obtain ⟨hg, -, -⟩ := hn.graph
  obtain ⟨c, hc⟩ : ∃ c, BaroSide c p.ba := by
    have := hn.baro
    cases hs : s.baro with
    | none => rw [hs] at this; exact ⟨_, this⟩
    | some n => rw [hs] at this; exact ⟨_, this.2.2⟩
  obtain ⟨c0, c1, c2, c3, c4, c5⟩ := hc
  have hf : p.ba.f = none := by
    by_contra hne
    obtain ⟨f0, hf0⟩ := Option.ne_none_iff_exists'.1 hne
    exact hnone f0 (hg.baro.first f0 hf0).1
  have hc0 := c5.1 hf
  constructor
  · rintro j ⟨v, hv⟩
    have : hasVal s.be.isam.gm .P j = .ok true := by
      unfold barometerBias getVal at hv
      unfold hasVal
      cases hs : sym .P j with
      | throws => rw [hs] at hv; simp at hv
      | ub => rw [hs] at hv; simp at hv
      | ok raw =>
        rw [hs] at hv
        simp only [Outcome.bind_ok] at hv ⊢
        unfold OMap.contains
        cases hq : OMap.find s.be.isam.gm.values raw with
        | none => rw [hq] at hv; simp at hv
        | some w => rfl
    have := (hg.baro.vals j).1 this
    omega
  · rw [allFactors_filter hg.sorted _ 0]
    all_goals
      intros
      rw [List.filter_eq_nil_iff]
      intro x hx hk
      rcases Bool.or_eq_true_iff.1 hk with hk | hk
      · have := List.mem_filter (p := fun x => x.kind == .plain .baroBias).2 ⟨hx, hk⟩
        rw [hg.baro.walk, if_neg (by omega)] at this
        simp at this
      · have := List.mem_map_of_mem (f := fun x : Factor D => x.vars) (List.mem_filter (p := fun x => x.kind == .plain .priorBaro).2 ⟨hx, hk⟩)
        rw [hg.baro.prior, c4, hf] at this
        simp at this

/-! ### A run of the node with all sensors -/

/-- Numerical operations on integers; covariances are Booleans that say whether they are valid. -/
def demoApi : Api Int Int Unit Bool Unit where
  opt := { update := fun _ _ _ => .ok (), estimate := fun _ => [], marginalizeLeaves := fun _ _ => .ok () }
  changed _ := []
  marginal _ _ := .ok ()
  compose p t := p + t
  zeroBias := 0
  validCov c := c
  zeroSigma _ := false
  preintegrate _ m := .ok (m.stop - m.start)
  predict p v _ d := (p + v * d, v)
  nan _ := false
  s2s p q := q - p
  velocity p q _ := q - p
  calibrate _ := fun p d => p + d
  obs p := p.uL.num
  pressure p := p.num
  height p := p.num
  prior v := v
  zero := 0

/-- All sensors. -/
def demoCfg : Cfg := { imu := true, reg := true, stereo := true, baro := true }

def demoStereo (t : Int) : Ev Int Int Bool Unit :=
  .stereo { stamp := t, p3 := -1, p0 := 1, features := [⟨7, 3, 1, 2, 1⟩] }

/-- Two keys. The stereo frame of key 1 comes before, the one of key 2 after the registration; the first barometer message
is for key 1 and comes after the second IMU message. -/
def demoEvents : List (Ev Int Int Bool Unit) :=
  [.initial ⟨0, 10, 1, false, false⟩, .baroStart, .baroPoll 5, demoStereo 0,
   .imu ⟨0, 5, [()]⟩, demoStereo 5, .reg ⟨5, 5, false⟩,
   .imu ⟨5, 10, [()]⟩, .baroFinish ⟨5, 99000, 1⟩, .reg ⟨10, 6, false⟩, demoStereo 10, .baroStart, .baroFinish ⟨10, 98000, 1⟩]

def demoInit : BE Int Int Unit := (initSys demoCfg ()).2

def demoFinal : Option (Sys Int Int Unit) := nodeRun .nodeCount demoApi demoCfg demoEvents { be := demoInit }

theorem demoFinal_runs : demoFinal.isSome = true := by decide +kernel

theorem demoInit_ok : initSys demoCfg () = (.ok (), demoInit) :=
  Prod.ext (by decide +kernel) rfl

theorem demo_reach : NodeReach .nodeCount demoApi demoCfg () (demoFinal.get demoFinal_runs) :=
  nodeReach_run (NodeReach.init demoInit_ok) (Option.some_get demoFinal_runs).symm

/-- C20 applies to this run: three calls, in order. -/
example : (demoFinal.map fun s => s.be.calls.map Prod.fst) = some [0, 1, 2] := by decide +kernel

/-- C21 applies to this run: pressure factors at the keys 1 and 2, both random walk factors, and the prior on bias 1. -/
example : (demoFinal.map fun s => ((factorsAt s.be.isam.gm 1).filter (fun x => x.kind == .plain .baro)).map (·.vars)) =
    some [[keyOf .X 1, keyOf .P 1]] := by decide +kernel

example : (demoFinal.map fun s => ((allFactors s.be.isam.gm).filter
      (fun x => x.kind == .plain .baroBias || x.kind == .plain .priorBaro)).map (·.vars)) =
    some [[keyOf .P 1], [keyOf .P 0, keyOf .P 1], [keyOf .P 1, keyOf .P 2]] := by decide +kernel

/-- C18: the messages with a valid covariance are refused in this state, those with an invalid one are accepted. -/
def demoBefore : Option (Sys Int Int Unit) :=
  nodeRun .nodeCount demoApi demoCfg [.initial ⟨0, 10, 1, false, false⟩, .imu ⟨0, 5, [()]⟩] { be := demoInit }

/-- **C18 fails**: with the same history before them, a registration with an invalid covariance adds its factor and one with a valid
covariance ends the callback with an exception and adds none. -/
theorem C18_fails_invalid_accepted :
    (demoBefore.bind fun s => (nodeStep .nodeCount demoApi demoCfg (.reg ⟨5, 5, false⟩) s).map fun r =>
      (r.1, (factorsAt r.2.be.isam.gm 1).map (·.kind))) = some (.ok (), [.plain .combinedImu, .plain .betweenPose]) ∧
    (demoBefore.bind fun s => (nodeStep .nodeCount demoApi demoCfg (.reg ⟨5, 5, true⟩) s).map fun r =>
      (r.1, (factorsAt r.2.be.isam.gm 1).map (·.kind))) = some (.throws, [.plain .combinedImu]) := by
  constructor <;> decide +kernel

end BackEnd

end Serpent
