import Verif.Spec.Registration
import Verif.Props.LidarOptions
import Mathlib.Tactic.Linarith
import Mathlib.Tactic.Ring

/-!
# Registration: configuration and pairing of scans, results and maps (C64, C97)
-/

namespace Serpent

namespace Lidar

open EigenExt

/-! ### Configuration -/

/-- C97. Whatever the parameters, the node that creates the registration and the constructor either throw, or every later
computation of a covariance is the one asked for: no uninitialised member is read, no null function is called, and no function
throws because of the point type. -/
theorem C97_covariance {c c' : RegConfig} {s : RegMembers} (hn : nodeConfig c = .ok c') (hc : construct c' = .ok s) :
    ∃ (cov : CovMethod) (model : CovModel) (point : PointMethod),
      c.covMethod = cov.name ∧ c.pointMethod = point.name ∧ (cov ≠ .constant → c.covModel = model.name) ∧
      supported c cov point ∧ covarianceCall c' s = .ok (wantedCall c cov model point) := by
  unfold nodeConfig requiresUnitVectorsNamed at hn
  cases e1 : toCovMethod c.covMethod with
  | throws => rw [e1] at hn; cases hn
  | ub => rw [e1] at hn; cases hn
  | ok cov =>
    cases e2 : toPointMethod c.pointMethod with
    | throws => rw [e1, e2] at hn; cases hn
    | ub => rw [e1, e2] at hn; cases hn
    | ok point =>
      rw [e1, e2] at hn
      simp only [Outcome.bind_ok] at hn
      have hn := (Outcome.ok.inj hn).symm
      subst hn
      unfold construct at hc
      cases e3 : toRegMethod c.s2sMethod with
      | throws => simp only [e3] at hc; cases hc
      | ub => simp only [e3] at hc; cases hc
      | ok s2s =>
        simp only [e3, Outcome.bind_ok] at hc
        cases e4 : configureS2m { c with unitPoints := requiresUnitVectors cov point } with
        | throws => rw [e4] at hc; cases hc
        | ub => rw [e4] at hc; cases hc
        | ok s2m =>
          rw [e4, Outcome.bind_ok, e1, Outcome.bind_ok] at hc
          have hcov := C69_covariance_method.accepted _ _ e1
          have hpt := C69_point_method.accepted _ _ e2
          by_cases h0 : cov = .constant
          · rw [if_pos h0] at hc
            subst h0
            refine ⟨.constant, .pointToPointLinearised, point, hcov, hpt, fun h => absurd rfl h, .inl rfl, ?_⟩
            rw [← Outcome.ok.inj hc]
            show Outcome.ok (CovCall.constant _ _) = _
            simp only [wantedCall, pow_two]
          · rw [if_neg h0] at hc
            unfold configureEstimate at hc
            cases e5 : toCovModel c.covModel with
            | throws => simp only [e5] at hc; cases hc
            | ub => simp only [e5] at hc; cases hc
            | ok model =>
              simp only [e5, Outcome.bind_ok] at hc
              have hmodel := C69_covariance_model.accepted _ _ e5
              refine ⟨cov, model, point, hcov, hpt, fun _ => hmodel, ?_⟩
              cases cov with
              | constant => exact absurd rfl h0
              | censi =>
                simp only [createBindings, e2, Outcome.bind_ok] at hc
                cases point with
                | constant =>
                  rw [← Outcome.ok.inj hc]
                  exact ⟨.inr trivial, rfl⟩
                | voxelSize =>
                  unfold setPointVariance at hc
                  by_cases hv : c.voxelFilter = false
                  · simp only [hv] at hc; cases hc
                  · simp only [hv] at hc
                    rw [← Outcome.ok.inj hc]
                    exact ⟨.inr (by simpa using hv), rfl⟩
                | range =>
                  unfold setPointVariance setRange at hc
                  by_cases hr : c.rangeNoise ≤ 0
                  · simp [hr] at hc
                  · simp [hr] at hc
                    rw [← hc]
                    exact ⟨.inr ⟨rfl, not_le.1 hr⟩, rfl⟩
                | rangeBias =>
                  unfold setPointVariance setRange at hc
                  by_cases hb : c.rangeBiasNoise ≤ 0
                  · simp [hb] at hc
                  · by_cases hr : c.rangeNoise ≤ 0
                    · simp [hr] at hc
                    · simp [hr, hb] at hc
                      rw [← hc]
                      exact ⟨.inr ⟨rfl, not_le.1 hr, not_le.1 hb⟩, rfl⟩
              | lls =>
                simp only [createBindings, e2, Outcome.bind_ok] at hc
                cases point with
                | constant =>
                  rw [← Outcome.ok.inj hc]
                  exact ⟨.inr trivial, rfl⟩
                | voxelSize =>
                  unfold setPointVariance at hc
                  by_cases hv : c.voxelFilter = false
                  · simp only [hv] at hc; cases hc
                  · simp only [hv] at hc
                    rw [← Outcome.ok.inj hc]
                    exact ⟨.inr (by simpa using hv), rfl⟩
                | range =>
                  unfold setPointVariance setRange at hc
                  simp at hc
                | rangeBias =>
                  unfold setPointVariance at hc
                  simp at hc

/-- C97. Every supported combination is accepted, for all known registration methods. -/
theorem C97_accepted (c : RegConfig) (cov : CovMethod) (model : CovModel) (point : PointMethod) (h1 : c.covMethod = cov.name)
    (h2 : c.covModel = model.name) (h3 : c.pointMethod = point.name) (h4 : supported c cov point) {a b : RegMethod}
    (ha : toRegMethod c.s2sMethod = .ok a) (hb : c.s2m = true → toRegMethod c.s2mMethod = .ok b) :
    ∃ c' s, nodeConfig c = .ok c' ∧ construct c' = .ok s := by
  have e1 : toCovMethod c.covMethod = .ok cov := by rw [h1]; exact C69_covariance_method.printed cov
  have e2 : toPointMethod c.pointMethod = .ok point := by rw [h3]; exact C69_point_method.printed point
  have e3 : toCovModel c.covModel = .ok model := by rw [h2]; exact C69_covariance_model.printed model
  have hn : nodeConfig c = .ok { c with unitPoints := requiresUnitVectors cov point } := by
    unfold nodeConfig requiresUnitVectorsNamed
    rw [e1, Outcome.bind_ok, e2]
    rfl
  suffices h : ∃ s, construct { c with unitPoints := requiresUnitVectors cov point } = .ok s from
    let ⟨s, h⟩ := h
    ⟨_, s, hn, h⟩
  have hs : ∃ m, configureS2m { c with unitPoints := requiresUnitVectors cov point } = .ok m := by
    unfold configureS2m
    by_cases h : c.s2m = true
    · simp only [h, hb h, Outcome.bind_ok]; exact ⟨_, rfl⟩
    · exact ⟨none, if_neg h⟩
  obtain ⟨m, hm⟩ := hs
  unfold construct
  simp only [ha, Outcome.bind_ok]
  rw [hm, Outcome.bind_ok, e1, Outcome.bind_ok]
  by_cases h0 : cov = .constant
  · rw [if_pos h0]; exact ⟨_, rfl⟩
  · rw [if_neg h0]
    have h4 := h4.resolve_left h0
    unfold configureEstimate
    simp only [e3, e2, Outcome.bind_ok]
    cases cov with
    | constant => exact absurd rfl h0
    | censi =>
      simp only [createBindings, Outcome.bind_ok]
      cases point with
      | constant => exact ⟨_, rfl⟩
      | voxelSize => exact ⟨_, if_neg (by simp only at h4 ⊢; rw [h4]; decide)⟩
      | range =>
        have := not_le.2 h4.2
        simp [setPointVariance, setRange, this]
      | rangeBias =>
        have h5 := not_le.2 h4.2.1
        have h6 := not_le.2 h4.2.2
        simp [setPointVariance, setRange, h5, h6]
    | lls =>
      simp only [createBindings, Outcome.bind_ok]
      cases point with
      | constant => exact ⟨_, rfl⟩
      | voxelSize => exact ⟨_, if_neg (by simp only at h4 ⊢; rw [h4]; decide)⟩
      | range => exact absurd h4.1 (by decide)
      | rangeBias => exact absurd h4.1 (by decide)

/-- A configuration for the examples. -/
def exampleConfig : RegConfig :=
  ⟨true, "gicp", "icp", "CENSI", "POINT_TO_PLANE_NONLINEAR", "RANGE_BIAS", true, 1, 1, 1, 1 / 10, 1 / 20, 1 / 50, false⟩

/-- The hypotheses hold for a configuration with range noise and bias. -/
example : ∃ c' s, nodeConfig exampleConfig = .ok c' ∧ construct c' = .ok s :=
  C97_accepted _ .censi .pointToPlaneNonlinear .rangeBias rfl rfl rfl
    (.inr ⟨rfl, by norm_num [exampleConfig], by norm_num [exampleConfig]⟩) (a := .gicp) (b := .icp) rfl (fun _ => rfl)

/-- The choice of the point type by the node is needed: the same constructor accepts the point type without unit vectors, and the
computation throws at the first scan. -/
theorem C97_fails_other_point_type :
    ∃ s, construct exampleConfig = .ok s ∧ covarianceCall exampleConfig s = .throws := by
  refine ⟨⟨.gicp, some .icp, .censi, some .pointToPlaneNonlinear, some .rangeBias,
    some (some (.censiIid .pointToPlaneNonlinear)), some (some (.censiRange .pointToPlaneNonlinear)),
    some (some (.censiRangeBias .pointToPlaneNonlinear)), none, none, some ((1 / 20) ^ 2), some ((1 / 50) ^ 2)⟩, ?_, rfl⟩
  decide +kernel

/-! ### Pairing -/

section
variable {Cloud T P : Type}

theorem consecutive_append {α β : Type} (f : α → α → β) (l : List α) (x : α) :
    consecutive f (l ++ [x]) = consecutive f l ++ (match l.getLast? with
      | none => []
      | some a => [f a x]) := by
  induction l with
  | nil => rfl
  | cons a l ih =>
    cases l with
    | nil => rfl
    | cons b l =>
      have : consecutive f (a :: b :: l ++ [x]) = f a b :: consecutive f (b :: l ++ [x]) := rfl
      rw [this, ih]
      have : (a :: b :: l).getLast? = (b :: l).getLast? := rfl
      rw [this]
      rfl

theorem scansOf_append (a b : List (RegEvent Cloud T)) : scansOf (a ++ b) = scansOf a ++ scansOf b := by
  induction a with
  | nil => rfl
  | cons e a ih => cases e <;> simp [scansOf, ih]

theorem mapsOf_append (a b : List (RegEvent Cloud T)) : mapsOf (a ++ b) = mapsOf a ++ mapsOf b := by
  induction a with
  | nil => rfl
  | cons e a ih => cases e <;> simp [mapsOf, ih]

variable (ops : RegOps Cloud T P)

/-- The `k`-th published transform is that of the `k`-th pending scan, registered to the `k`-th map from its own scan-to-scan
result. -/
def Paired (R : List (Cloud × Cloud × T)) (M : List Cloud) (pub : List P) : Prop :=
  ∀ (k : Nat) (p : P), pub[k]? = some p → ∃ (c prev : Cloud) (r : T) (m : Cloud), R[k]? = some (c, prev, r) ∧ M[k]? = some m ∧
    ops.refined c m (ops.s2m c m r) = .ok p

/-- What the queues hold: the pending scans and results are those not yet taken. -/
structure Queues (R : List (Cloud × Cloud × T)) (M : List Cloud) (taken : Nat) (s : RegState Cloud T P) : Prop where
  scans : taken ≤ R.length
  mapsTaken : taken ≤ M.length
  clouds : s.clouds = (R.drop taken).map fun x => x.1
  results : s.results = (R.drop taken).map fun x => x.2.2
  maps : s.maps = M.drop taken
  idle : s.busy = none → taken = s.published.length
  busy : ∀ m c r, s.busy = some (m, c, r) → taken = s.published.length + 1 ∧ M[s.published.length]? = some m ∧
    ∃ prev, R[s.published.length]? = some (c, prev, r)

/-- Invariant with scan-to-map. -/
structure S2mInv (events : List (RegEvent Cloud T)) (s : RegState Cloud T P) : Prop where
  paired : Paired ops (scanToScan ops.s2s (scansOf events)) (mapsOf events) s.published
  previous : s.alive = true → s.previous = (scansOf events).getLast?.map (·.1)
  queues : s.alive = true → ∃ taken, Queues (scanToScan ops.s2s (scansOf events)) (mapsOf events) taken s

theorem Paired.mono {R R' : List (Cloud × Cloud × T)} {M M' : List Cloud} {pub : List P} (h : Paired ops R M pub) :
    Paired ops (R ++ R') (M ++ M') pub := by
  intro k p hk
  obtain ⟨c, prev, r, m, h1, h2, h3⟩ := h k p hk
  refine ⟨c, prev, r, m, ?_, ?_, h3⟩
  · rw [List.getElem?_append_left (List.getElem?_eq_some_iff.1 h1).1, h1]
  · rw [List.getElem?_append_left (List.getElem?_eq_some_iff.1 h2).1, h2]

theorem scanToScan_append (align : Cloud → Cloud → T → T) (S : List (Cloud × T)) (x : Cloud × T) :
    scanToScan align (S ++ [x]) = scanToScan align S ++ (match S.getLast? with
      | none => []
      | some a => [(x.1, a.1, align x.1 a.1 x.2)]) := by
  unfold scanToScan
  rw [consecutive_append]
  cases S.getLast? <;> rfl

theorem s2m_step (events : List (RegEvent Cloud T)) (s : RegState Cloud T P) (h : S2mInv ops events s) (e : RegEvent Cloud T) :
    S2mInv ops (events ++ [e]) (regStep ops true s e) := by
  have hS : ∃ R', scanToScan ops.s2s (scansOf (events ++ [e])) = scanToScan ops.s2s (scansOf events) ++ R' := by
    rw [scansOf_append]
    cases e with
    | scan c g => exact ⟨_, scanToScan_append ops.s2s (scansOf events) (c, g)⟩
    | map _ => exact ⟨[], by simp [scansOf]⟩
    | take => exact ⟨[], by simp [scansOf]⟩
    | finish => exact ⟨[], by simp [scansOf]⟩
  obtain ⟨R', hR⟩ := hS
  have hM := mapsOf_append events [e]
  have mono : Paired ops (scanToScan ops.s2s (scansOf (events ++ [e]))) (mapsOf (events ++ [e])) s.published := by
    rw [hR, hM]; exact h.paired.mono ops
  unfold regStep
  by_cases ha : s.alive = false
  · rw [if_pos ha]
    exact ⟨mono, fun h' => by rw [ha] at h'; (cases h'), fun h' => by rw [ha] at h'; (cases h')⟩
  · rw [if_neg ha]
    have ha : s.alive = true := by simpa using ha
    have hp := h.previous ha
    obtain ⟨n, q⟩ := h.queues ha
    cases e with
    | map m =>
      have e1 : scansOf (events ++ [RegEvent.map m]) = scansOf events := by rw [scansOf_append]; simp [scansOf]
      have e2 : mapsOf (events ++ [RegEvent.map (T := T) m]) = mapsOf events ++ [m] := hM
      refine ⟨mono, fun _ => by rw [e1]; exact hp, fun _ => ⟨n, ?_⟩⟩
      rw [e1, e2]
      refine ⟨q.scans, by rw [List.length_append]; exact Nat.le_add_right_of_le q.mapsTaken, q.clouds, q.results, ?_, q.idle, ?_⟩
      · show s.maps ++ [m] = _
        rw [q.maps, List.drop_append_of_le_length q.mapsTaken]
      · intro m' c r hb
        obtain ⟨b1, b2, b3⟩ := q.busy m' c r hb
        exact ⟨b1, by rw [List.getElem?_append_left (List.getElem?_eq_some_iff.1 b2).1]; exact b2, b3⟩
    | take =>
      have e1 : scansOf (events ++ [RegEvent.take]) = scansOf events := by rw [scansOf_append]; simp [scansOf]
      have e2 : mapsOf (events ++ [RegEvent.take (Cloud := Cloud) (T := T)]) = mapsOf events := by rw [mapsOf_append]; simp [mapsOf]
      rw [e1, e2] at mono
      show S2mInv ops _ (s2mTake s)
      unfold s2mTake
      split
      · rename_i m ms c cs r rs hb hm hc hr
        refine ⟨by rw [e1, e2]; exact mono, fun _ => by rw [e1]; exact hp, fun _ => ⟨n + 1, ?_⟩⟩
        rw [e1, e2]
        have hn := q.idle hb
        have h1 := q.clouds; rw [hc] at h1
        have h2 := q.results; rw [hr] at h2
        have h3 := q.maps; rw [hm] at h3
        generalize hRR : scanToScan ops.s2s (scansOf events) = R at *
        generalize hMM : mapsOf events = M at *
        cases hd : R.drop n with
        | nil => rw [hd] at h1; cases h1
        | cons x xs =>
          rw [hd] at h1 h2
          simp only [List.map_cons, List.cons.injEq] at h1 h2
          have hx : R[n]? = some x := by
            have := congrArg (fun l => l[0]?) hd
            simpa using this
          have hm0 : M[n]? = some m := by
            have := congrArg (fun l => l[0]?) h3.symm
            simpa using this
          have hxs : R.drop (n + 1) = xs := by
            rw [← List.tail_drop, hd]; rfl
          refine ⟨(List.getElem?_eq_some_iff.1 hx).1, (List.getElem?_eq_some_iff.1 hm0).1, ?_, ?_, ?_, ?_, ?_⟩
          · show cs = _; rw [hxs, h1.2]
          · show rs = _; rw [hxs, h2.2]
          · show ms = _; rw [← List.tail_drop, ← h3]; rfl
          · intro h'; cases h'
          · intro m' c' r' h'
            have := Option.some.inj h'
            simp only [Prod.mk.injEq] at this
            obtain ⟨rfl, rfl, rfl⟩ := this
            refine ⟨by rw [← hn], ?_, x.2.1, ?_⟩
            · show M[s.published.length]? = _
              rw [← hn]; exact hm0
            · show R[s.published.length]? = _
              rw [← hn, hx, h1.1, h2.1]
      · exact ⟨by rw [e1, e2]; exact mono, fun _ => by rw [e1]; exact hp, fun _ => ⟨n, by rw [e1, e2]; exact q⟩⟩
    | finish =>
      have e1 : scansOf (events ++ [RegEvent.finish]) = scansOf events := by rw [scansOf_append]; simp [scansOf]
      have e2 : mapsOf (events ++ [RegEvent.finish (Cloud := Cloud) (T := T)]) = mapsOf events := by
        rw [mapsOf_append]; simp [mapsOf]
      rw [e1, e2] at mono
      show S2mInv ops _ (s2mFinish ops s)
      unfold s2mFinish
      cases hb : s.busy with
      | none => exact ⟨by rw [e1, e2]; exact mono, fun _ => by rw [e1]; exact hp, fun _ => ⟨n, by rw [e1, e2]; exact q⟩⟩
      | some x =>
        obtain ⟨m, c, r⟩ := x
        obtain ⟨b1, b2, prev, b3⟩ := q.busy m c r hb
        dsimp only
        cases er : ops.refined c m (ops.s2m c m r) with
        | throws => exact ⟨by rw [e1, e2]; exact mono, fun h' => absurd h' Bool.false_ne_true, fun h' => absurd h' Bool.false_ne_true⟩
        | ub => exact ⟨by rw [e1, e2]; exact mono, fun h' => absurd h' Bool.false_ne_true, fun h' => absurd h' Bool.false_ne_true⟩
        | ok p =>
          refine ⟨?_, fun _ => by rw [e1]; exact hp, fun _ => ⟨n, ?_⟩⟩
          · rw [e1, e2]
            intro k p' hk
            replace hk : (s.published ++ [p])[k]? = some p' := hk
            by_cases hlt : k < s.published.length
            · rw [List.getElem?_append_left hlt] at hk
              exact mono k p' hk
            · have hke : k = s.published.length := by
                have := (List.getElem?_eq_some_iff.1 hk).1
                simp at this
                omega
              subst hke
              rw [List.getElem?_concat_length] at hk
              exact ⟨c, prev, r, m, b3, b2, by rw [er, Option.some.inj hk]⟩
          · rw [e1, e2]
            refine ⟨q.scans, q.mapsTaken, q.clouds, q.results, q.maps, fun _ => ?_, fun _ _ _ h' => by cases h'⟩
            show n = (s.published ++ [p]).length
            rw [b1]; simp
    | scan c g =>
      have e2 : mapsOf (events ++ [RegEvent.scan c g]) = mapsOf events := by rw [mapsOf_append]; simp [mapsOf]
      have e1 : scansOf (events ++ [RegEvent.scan c g]) = scansOf events ++ [(c, g)] := by rw [scansOf_append]; simp [scansOf]
      have eR := scanToScan_append ops.s2s (scansOf events) (c, g)
      have elast : (scansOf (events ++ [RegEvent.scan c g])).getLast?.map (·.1) = some c := by rw [e1]; simp
      show S2mInv ops _ (s2sCallback ops true s c g)
      unfold s2sCallback
      cases hprev : s.previous with
      | none =>
        refine ⟨mono, fun _ => elast.symm, fun _ => ⟨n, ?_⟩⟩
        rw [hprev] at hp
        have : (scansOf events).getLast? = none := by
          cases hl : (scansOf events).getLast? with
          | none => rfl
          | some x => rw [hl] at hp; cases hp
        rw [this, List.append_nil] at eR
        rw [e1, e2, eR]
        exact ⟨q.scans, q.mapsTaken, q.clouds, q.results, q.maps, q.idle, q.busy⟩
      | some prev =>
        rw [hprev] at hp
        obtain ⟨x, hx, hx1⟩ : ∃ x, (scansOf events).getLast? = some x ∧ x.1 = prev := by
          cases hl : (scansOf events).getLast? with
          | none => rw [hl] at hp; cases hp
          | some x => rw [hl] at hp; exact ⟨x, rfl, (Option.some.inj hp).symm⟩
        rw [hx] at eR
        dsimp only at eR ⊢
        rw [hx1] at eR
        split
        · exact ⟨mono, fun h' => absurd h' Bool.false_ne_true, fun h' => absurd h' Bool.false_ne_true⟩
        · rw [if_pos rfl]
          refine ⟨mono, fun _ => elast.symm, fun _ => ⟨n, ?_⟩⟩
          rw [e1, e2, eR]
          refine ⟨by rw [List.length_append]; exact Nat.le_add_right_of_le q.scans, q.mapsTaken, ?_, ?_, q.maps, q.idle, ?_⟩
          · show s.clouds ++ [c] = _
            rw [List.drop_append_of_le_length q.scans, List.map_append, q.clouds]; rfl
          · show s.results ++ [_] = _
            rw [List.drop_append_of_le_length q.scans, List.map_append, q.results]; rfl
          · intro m' c' r' hb
            obtain ⟨b1, b2, pv, b3⟩ := q.busy m' c' r' hb
            exact ⟨b1, b2, pv, by rw [List.getElem?_append_left (List.getElem?_eq_some_iff.1 b3).1]; exact b3⟩

theorem run_append (s2m : Bool) (a : List (RegEvent Cloud T)) (e : RegEvent Cloud T) :
    regRun ops s2m (a ++ [e]) = regStep ops s2m (regRun ops s2m a) e := by
  unfold regRun
  rw [List.foldl_append]; rfl

theorem s2m_inv (events : List (RegEvent Cloud T)) : S2mInv ops events (regRun ops true events) := by
  induction events using List.reverseRecOn with
  | nil => exact ⟨fun k p h => by simp [regRun, RegState.init] at h, fun _ => rfl, fun _ => ⟨0, ⟨le_rfl, le_rfl, rfl, rfl, rfl, fun _ => rfl, fun _ _ _ h => by cases h⟩⟩⟩
  | append_singleton es e ih =>
    rw [run_append]
    exact s2m_step ops es _ ih e

/-- C64, with scan-to-map. In every interleaving of the callbacks, the `k`-th transform that is published is that of the `k`-th
scan after the first, registered to the `k`-th map, starting from the scan-to-scan result of that scan (which starts from the guess
of that scan). -/
theorem C64_order (events : List (RegEvent Cloud T)) (k : Nat) (p : P)
    (h : (regRun ops true events).published[k]? = some p) :
    ∃ c prev r m, (scanToScan ops.s2s (scansOf events))[k]? = some (c, prev, r) ∧ (mapsOf events)[k]? = some m ∧
      ops.refined c m (ops.s2m c m r) = .ok p :=
  (s2m_inv ops events).paired k p h

/-- C64, with scan-to-map. The pending scans and results are always paired: they are those of the same scans. -/
theorem C64_pending (events : List (RegEvent Cloud T)) (ha : (regRun ops true events).alive = true) :
    ∃ n, (regRun ops true events).clouds = ((scanToScan ops.s2s (scansOf events)).drop n).map (fun x => x.1) ∧
      (regRun ops true events).results = ((scanToScan ops.s2s (scansOf events)).drop n).map (fun x => x.2.2) ∧
      (regRun ops true events).published.length ≤ n ∧ n ≤ (regRun ops true events).published.length + 1 := by
  obtain ⟨n, q⟩ := (s2m_inv ops events).queues ha
  refine ⟨n, q.clouds, q.results, ?_⟩
  cases hb : (regRun ops true events).busy with
  | none => have := q.idle hb; omega
  | some x => obtain ⟨m, c, r⟩ := x; have := (q.busy m c r hb).1; omega

/-- C64, with scan-to-map. None is lost: when no callback for a map runs or can run, as many transforms were published as there are
scans after the first, or maps if those are fewer. -/
theorem C64_complete (events : List (RegEvent Cloud T)) (ha : (regRun ops true events).alive = true)
    (hb : (regRun ops true events).busy = none) (hw : s2mTake (regRun ops true events) = regRun ops true events) :
    (regRun ops true events).published.length = min ((scansOf events).length - 1) (mapsOf events).length := by
  have hlen : ∀ S : List (Cloud × T), (scanToScan ops.s2s S).length = S.length - 1 := by
    intro S
    induction S with
    | nil => rfl
    | cons a S ih =>
      cases S with
      | nil => rfl
      | cons b S =>
        show (scanToScan ops.s2s (b :: S)).length + 1 = _
        rw [ih]; rfl
  obtain ⟨n, q⟩ := (s2m_inv ops events).queues ha
  rw [← hlen]
  have hn := q.idle hb
  rw [← hn]
  have h1 := q.scans
  have h2 := q.mapsTaken
  by_contra hne
  have hlt1 : n < (scanToScan ops.s2s (scansOf events)).length := by omega
  have hlt2 : n < (mapsOf events).length := by omega
  have hm := q.maps
  have hc := q.clouds
  have hr := q.results
  rw [List.drop_eq_getElem_cons hlt2] at hm
  rw [List.drop_eq_getElem_cons hlt1] at hc hr
  unfold s2mTake at hw
  rw [hb, hm, hc, hr] at hw
  simp only [List.map_cons] at hw
  have := congrArg RegState.busy hw
  rw [hb] at this
  cases this

/-- Invariant without scan-to-map. -/
structure S2sInv (events : List (RegEvent Cloud T)) (s : RegState Cloud T P) : Prop where
  published : ∀ (k : Nat) (p : P), s.published[k]? = some p → ∃ (c prev : Cloud) (r : T), (scanToScan ops.s2s (scansOf events))[k]? = some (c, prev, r) ∧
    ops.refined c prev r = .ok p
  previous : s.alive = true → s.previous = (scansOf events).getLast?.map (·.1)
  length : s.alive = true → s.published.length = (scanToScan ops.s2s (scansOf events)).length
  idle : s.busy = none ∧ s.clouds = [] ∧ s.results = []
  maps : s.alive = true → s.maps = mapsOf events

theorem s2s_step (events : List (RegEvent Cloud T)) (s : RegState Cloud T P) (h : S2sInv ops events s) (e : RegEvent Cloud T) :
    S2sInv ops (events ++ [e]) (regStep ops false s e) := by
  have hS : ∃ R', scanToScan ops.s2s (scansOf (events ++ [e])) = scanToScan ops.s2s (scansOf events) ++ R' := by
    rw [scansOf_append]
    cases e with
    | scan c g => exact ⟨_, scanToScan_append ops.s2s (scansOf events) (c, g)⟩
    | map _ => exact ⟨[], by simp [scansOf]⟩
    | take => exact ⟨[], by simp [scansOf]⟩
    | finish => exact ⟨[], by simp [scansOf]⟩
  obtain ⟨R', hR⟩ := hS
  have mono : ∀ (k : Nat) (p : P), s.published[k]? = some p → ∃ (c prev : Cloud) (r : T), (scanToScan ops.s2s (scansOf (events ++ [e])))[k]? = some (c, prev, r) ∧
      ops.refined c prev r = .ok p := by
    intro k p hk
    obtain ⟨c, prev, r, h1, h2⟩ := h.published k p hk
    exact ⟨c, prev, r, by rw [hR, List.getElem?_append_left (List.getElem?_eq_some_iff.1 h1).1, h1], h2⟩
  unfold regStep
  by_cases ha : s.alive = false
  · rw [if_pos ha]
    exact ⟨mono, fun h' => by rw [ha] at h'; (cases h'), fun h' => by rw [ha] at h'; (cases h'), h.idle,
      fun h' => by rw [ha] at h'; (cases h')⟩
  · rw [if_neg ha]
    have ha : s.alive = true := by simpa using ha
    have hp := h.previous ha
    have hl := h.length ha
    have hmp := h.maps ha
    cases e with
    | map m =>
      have e1 : scansOf (events ++ [RegEvent.map m]) = scansOf events := by rw [scansOf_append]; simp [scansOf]
      refine ⟨mono, fun _ => by rw [e1]; exact hp, fun _ => by rw [e1]; exact hl, h.idle, fun _ => ?_⟩
      rw [mapsOf_append]
      show s.maps ++ [m] = _
      rw [hmp]; rfl
    | take =>
      have e1 : scansOf (events ++ [RegEvent.take]) = scansOf events := by rw [scansOf_append]; simp [scansOf]
      have e2 : mapsOf (events ++ [RegEvent.take (Cloud := Cloud) (T := T)]) = mapsOf events := by rw [mapsOf_append]; simp [mapsOf]
      have : s2mTake s = s := by
        unfold s2mTake
        rw [h.idle.1, h.idle.2.1, h.idle.2.2]
        cases s.maps <;> rfl
      show S2sInv ops _ (s2mTake s)
      rw [this]
      exact ⟨mono, fun _ => by rw [e1]; exact hp, fun _ => by rw [e1]; exact hl, h.idle, fun _ => by rw [e2]; exact hmp⟩
    | finish =>
      have e1 : scansOf (events ++ [RegEvent.finish]) = scansOf events := by rw [scansOf_append]; simp [scansOf]
      have e2 : mapsOf (events ++ [RegEvent.finish (Cloud := Cloud) (T := T)]) = mapsOf events := by
        rw [mapsOf_append]; simp [mapsOf]
      have : s2mFinish ops s = s := by unfold s2mFinish; rw [h.idle.1]
      show S2sInv ops _ (s2mFinish ops s)
      rw [this]
      exact ⟨mono, fun _ => by rw [e1]; exact hp, fun _ => by rw [e1]; exact hl, h.idle, fun _ => by rw [e2]; exact hmp⟩
    | scan c g =>
      have e2 : mapsOf (events ++ [RegEvent.scan c g]) = mapsOf events := by rw [mapsOf_append]; simp [mapsOf]
      have e1 : scansOf (events ++ [RegEvent.scan c g]) = scansOf events ++ [(c, g)] := by rw [scansOf_append]; simp [scansOf]
      have eR := scanToScan_append ops.s2s (scansOf events) (c, g)
      have elast : (scansOf (events ++ [RegEvent.scan c g])).getLast?.map (·.1) = some c := by rw [e1]; simp
      show S2sInv ops _ (s2sCallback ops false s c g)
      unfold s2sCallback
      cases hprev : s.previous with
      | none =>
        rw [hprev] at hp
        have : (scansOf events).getLast? = none := by
          cases hl : (scansOf events).getLast? with
          | none => rfl
          | some x => rw [hl] at hp; cases hp
        rw [this, List.append_nil] at eR
        exact ⟨mono, fun _ => elast.symm, fun _ => by rw [e1, eR]; exact hl, h.idle, fun _ => by rw [e2]; exact hmp⟩
      | some prev =>
        rw [hprev] at hp
        obtain ⟨x, hx, hx1⟩ : ∃ x, (scansOf events).getLast? = some x ∧ x.1 = prev := by
          cases hl : (scansOf events).getLast? with
          | none => rw [hl] at hp; cases hp
          | some x => rw [hl] at hp; exact ⟨x, rfl, (Option.some.inj hp).symm⟩
        rw [hx] at eR
        dsimp only at eR ⊢
        rw [hx1] at eR
        split
        · exact ⟨mono, fun h' => absurd h' Bool.false_ne_true, fun h' => absurd h' Bool.false_ne_true, h.idle, fun h' => absurd h' Bool.false_ne_true⟩
        · rw [if_neg (by decide)]
          cases er : ops.refined c prev (ops.s2s c prev g) with
          | throws => exact ⟨mono, fun h' => absurd h' Bool.false_ne_true, fun h' => absurd h' Bool.false_ne_true, h.idle, fun h' => absurd h' Bool.false_ne_true⟩
          | ub => exact ⟨mono, fun h' => absurd h' Bool.false_ne_true, fun h' => absurd h' Bool.false_ne_true, h.idle, fun h' => absurd h' Bool.false_ne_true⟩
          | ok p =>
            refine ⟨?_, fun _ => elast.symm, fun _ => ?_, h.idle, fun _ => by rw [e2]; exact hmp⟩
            · intro k p' hk
              replace hk : (s.published ++ [p])[k]? = some p' := hk
              by_cases hlt : k < s.published.length
              · rw [List.getElem?_append_left hlt] at hk
                exact mono k p' hk
              · have hke : k = s.published.length := by
                  have := (List.getElem?_eq_some_iff.1 hk).1
                  simp at this
                  omega
                subst hke
                rw [List.getElem?_concat_length] at hk
                refine ⟨c, prev, ops.s2s c prev g, ?_, by rw [er, Option.some.inj hk]⟩
                rw [e1, eR, hl, List.getElem?_concat_length]
            · show (s.published ++ [p]).length = _
              rw [e1, eR]; simp [hl]

theorem s2s_inv (events : List (RegEvent Cloud T)) : S2sInv ops events (regRun ops false events) := by
  induction events using List.reverseRecOn with
  | nil => exact ⟨fun k p h => by simp [regRun, RegState.init] at h, fun _ => rfl, fun _ => rfl, ⟨rfl, rfl, rfl⟩, fun _ => rfl⟩
  | append_singleton es e ih =>
    rw [run_append]
    exact s2s_step ops es _ ih e

/-- C64, without scan-to-map. Each scan after the first yields exactly one transform, in order: that of the registration to the
scan before it, started from its guess. -/
theorem C64_s2s (events : List (RegEvent Cloud T)) :
    (∀ (k : Nat) (p : P), (regRun ops false events).published[k]? = some p →
      ∃ (c prev : Cloud) (r : T), (scanToScan ops.s2s (scansOf events))[k]? = some (c, prev, r) ∧ ops.refined c prev r = .ok p) ∧
    ((regRun ops false events).alive = true →
      (regRun ops false events).published.length = (scanToScan ops.s2s (scansOf events)).length) :=
  ⟨(s2s_inv ops events).published, (s2s_inv ops events).length⟩

/-- C64, without scan-to-map: the callback for maps is still registered, and it never gets past its wait: every map that arrives
keeps waiting. -/
theorem C64_fails_map_waits (events : List (RegEvent Cloud T)) (ha : (regRun ops false events).alive = true) :
    (regRun ops false events).maps = mapsOf events ∧ (regRun ops false events).busy = none ∧
      s2mTake (regRun ops false events) = regRun ops false events := by
  have h := s2s_inv ops events
  refine ⟨h.maps ha, h.idle.1, ?_⟩
  unfold s2mTake
  rw [h.idle.1, h.idle.2.1, h.idle.2.2]
  cases (regRun ops false events).maps <;> rfl

end

/-- Registration of numbers, for the examples: a cloud is its stamp; the published value shows what it was made of. -/
def exampleOps : RegOps Nat (List Nat) (List Nat) :=
  ⟨fun c prev g => [c, prev] ++ g, fun c m g => [c, m] ++ g, fun _ => true, fun c _ r => .ok (c :: r)⟩

/-- Three scans and two maps; the second map arrives before the second result. -/
example : (regRun exampleOps true [.scan 1 [10], .map 100, .take, .scan 2 [20], .take, .map 200, .take, .finish, .take, .scan 3 [30],
    .take, .finish]).published = [[2, 2, 100, 2, 1, 20], [3, 3, 200, 3, 2, 30]] := by decide

example : (regRun exampleOps false [.scan 1 [10], .map 100, .take, .scan 2 [20], .scan 3 [30]]).published =
    [[2, 2, 1, 20], [3, 3, 2, 30]] := by decide

/-- The scans and the maps are paired by position only: if the first map is lost (its queue was full, or the mapping threw it
away), every scan is registered to the map of the scan after it. Each map is made for the scan with the same stamp here. -/
theorem C98_fails_lost_map :
    ∃ events : List (RegEvent Nat (List Nat)), scansOf events = [(1, []), (2, []), (3, [])] ∧ mapsOf events = [3] ∧
      (regRun exampleOps true events).published = [[2, 2, 3, 2, 1]] :=
  ⟨[.scan 1 [], .scan 2 [], .scan 3 [], .map 3, .take, .finish], rfl, rfl, rfl⟩

/-- C98 (if no map is lost). If the `k`-th map is the one made for the `k`-th scan after the first, every scan is registered to
the map made for it. Missing: maps that are lost. -/
theorem C98_partial {Cloud T P : Type} (ops : RegOps Cloud T P) (events : List (RegEvent Cloud T)) (mapFor : Cloud → Cloud)
    (hm : ∀ (k : Nat) m, (mapsOf events)[k]? = some m → ∀ c g, (scansOf events)[k + 1]? = some (c, g) → m = mapFor c)
    (k : Nat) (p : P) (h : (regRun ops true events).published[k]? = some p) :
    ∃ c g r, (scansOf events)[k + 1]? = some (c, g) ∧ ops.refined c (mapFor c) (ops.s2m c (mapFor c) r) = .ok p := by
  obtain ⟨c, prev, r, m, h1, h2, h3⟩ := C64_order ops events k p h
  have key : ∀ (S : List (Cloud × T)) k c prev r, (scanToScan ops.s2s S)[k]? = some (c, prev, r) →
      ∃ g, S[k + 1]? = some (c, g) := by
    intro S
    induction S with
    | nil => intro k c prev r h; simp [scanToScan, consecutive] at h
    | cons a S ih =>
      intro k c prev r h
      cases S with
      | nil => simp [scanToScan, consecutive] at h
      | cons b S =>
        cases k with
        | zero =>
          have h := Option.some.inj h
          simp only [Prod.mk.injEq] at h
          exact ⟨b.2, by rw [← h.1]; rfl⟩
        | succ k =>
          obtain ⟨g, hg⟩ := ih k c prev r h
          exact ⟨g, hg⟩
  obtain ⟨g, hg⟩ := key _ k c prev r h1
  have := hm k m h2 c g hg
  subst this
  exact ⟨c, g, r, hg, h3⟩

end Lidar

end Serpent
