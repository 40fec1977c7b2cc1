import Verif.Lemmas.GraphValues

/-!
# Normal forms of the stereo methods
-/

namespace Serpent

namespace Graph

open M

variable {Val D : Type}

/-- State after `add_factor`. -/
def factorState (s : GM Val D) (k : Int) (f : Factor D) : GM Val D :=
  { s with
    factors := s.factors.alter k (fun o => o.getD [] ++ [f])
    newFactors := s.newFactors.alter k (fun o => o.getD [] ++ [f]) }

theorem addFactor_run (k : Int) (f : Factor D) (s : GM Val D) : addFactor k f s = (.ok (), factorState s k f) := rfl

theorem pushStereo_ok {k i id : Int} {d : D} {x l : Key} (hx : sym .X i = .ok x) (hl : sym .S id = .ok l)
    (s : GM Val D) : pushStereo k i id d s = (.ok (), factorState s k ⟨.stereo, [x, l], d⟩) := by
  unfold pushStereo
  rw [hx, hl]
  rfl

theorem pushStereo_throws_x {k i id : Int} {d : D} (hx : sym .X i = .throws) (s : GM Val D) :
    pushStereo k i id d s = (.throws, s) := by
  unfold pushStereo
  rw [hx]
  rfl

theorem pushStereo_throws_s {k i id : Int} {d : D} (hl : sym .S id = .throws) (s : GM Val D) :
    pushStereo k i id d s = (.throws, s) := by
  unfold pushStereo
  rw [hl]
  cases hx : sym .X i with
  | ok x => rfl
  | throws => rfl
  | ub => exact absurd hx (sym_ne_ub _ _)

/-- State after the first tracking of landmark `l` (id `id`) at key `k`. -/
def firstState (s : GM Val D) (k id : Int) (xp l : Key) (prevObs : D) : GM Val D :=
  let s1 := factorState s k ⟨.stereo, [xp, l], prevObs⟩
  { s1 with
    landmarkIds := s1.landmarkIds.alter k (fun o => o.getD [] ++ [id])
    newLandmarkIds := s1.newLandmarkIds.alter k (fun o => o.getD [] ++ [id]) }

/-- The feature is tracked for the first time: it is not in the frame before the previous one. -/
def isFirst (pp : Option (OMap Int D)) (id : Int) : Bool :=
  match pp with
  | none => true
  | some m => !m.contains id

theorem stereoPrev_eq (k : Int) (pp : Option (OMap Int D)) (id : Int) (d : D) (s : GM Val D) :
    stereoPrev k pp id d s = if isFirst pp id then stereoFirst k id d s else (.ok (), s) := by
  unfold stereoPrev isFirst
  cases pp with
  | none => rfl
  | some m =>
    dsimp only
    by_cases h : m.contains id = true
    · simp [h]
    · simp [h]

theorem stereoFirst_ok {k id : Int} {d : D} {xp l : Key} (hx : sym .X (k - 1) = .ok xp) (hl : sym .S id = .ok l)
    (s : GM Val D) : stereoFirst k id d s = (.ok (), firstState s k id xp l d) := by
  unfold stereoFirst
  rw [bind_run, pushStereo_ok hx hl]
  rfl

/-- State after one feature of the newest frame that is also in the previous frame. -/
def featState (s : GM Val D) (k id : Int) (first : Bool) (xp xk l : Key) (prevObs obs : D) (v : Val) : GM Val D :=
  let s1 := if first then firstState s k id xp l prevObs else s
  factorState (setState s1 l id v) k ⟨.stereo, [xk, l], obs⟩

theorem vinv_firstState {s : GM Val D} (h : VInv s) (k id : Int) (xp l : Key) (d : D) :
    VInv (firstState s k id xp l d) := ⟨h.values, h.newValues, h.coherent, h.symbols⟩

theorem vinv_factorState {s : GM Val D} (h : VInv s) (k : Int) (f : Factor D) : VInv (factorState s k f) :=
  ⟨h.values, h.newValues, h.coherent, h.symbols⟩

theorem vinv_featState {s : GM Val D} (h : VInv s) {k id : Int} {first : Bool} {xp xk l : Key} {p o : D} {v : Val}
    (hl : sym .S id = .ok l) : VInv (featState s k id first xp xk l p o v) := by
  unfold featState
  apply vinv_factorState
  apply vinv_setState _ hl
  split
  · exact vinv_firstState h _ _ _ _ _
  · exact h

/-- One feature: skipped, refused without effect, undefined, or added completely. -/
theorem stereoFeature_cases {s : GM Val D} (h : VInv s) {k : Int} {xk : Key} (hxk : sym .X k = .ok xk) (p : Val)
    (prev : OMap Int D) (pp : Option (OMap Int D)) (id : Int) (obs : D) :
    (prev.find id = none ∧ stereoFeature k p prev pp id obs s = (.ok (), s)) ∨
    ((prev.find id).isSome = true ∧ stereoFeature k p prev pp id obs s = (.throws, s) ∧
        ((isFirst pp id = true ∧ sym .X (k - 1) = .throws) ∨ sym .S id = .throws)) ∨
    ((stereoFeature k p prev pp id obs s).1 = .ub ∧ s.calib = none) ∨
    ∃ prevObs xp l bp, prev.find id = some prevObs ∧
        (isFirst pp id = true → sym .X (k - 1) = .ok xp) ∧ sym .S id = .ok l ∧ s.calib = some bp ∧
        stereoFeature k p prev pp id obs s =
          (.ok (), featState s k id (isFirst pp id) xp xk l prevObs obs (bp p obs)) := by
  unfold stereoFeature
  cases hf : prev.find id with
  | none => left; exact ⟨rfl, rfl⟩
  | some prevObs =>
    right
    dsimp only
    rw [bind_run, stereoPrev_eq]
    cases hl : sym .S id with
    | ub => exact absurd hl (sym_ne_ub _ _)
    | throws =>
      by_cases hfi : isFirst pp id = true
      · rw [if_pos hfi]
        have : stereoFirst k id prevObs s = (.throws, s) := by
          unfold stereoFirst
          rw [bind_run, pushStereo_throws_s hl]
        rw [this]
        left; exact ⟨rfl, rfl, Or.inr rfl⟩
      · rw [if_neg hfi]
        dsimp only
        unfold stereoCurrent
        simp only [get_bind]
        cases hc : s.calib with
        | none => right; left; exact ⟨rfl, rfl⟩
        | some bp =>
          left
          dsimp only
          rw [bind_run, set_throws s hl]
          exact ⟨rfl, rfl, Or.inr (by trivial)⟩
    | ok l =>
      by_cases hfi : isFirst pp id = true
      · rw [if_pos hfi]
        cases hxp : sym .X (k - 1) with
        | ub => exact absurd hxp (sym_ne_ub _ _)
        | throws =>
          have : stereoFirst k id prevObs s = (.throws, s) := by
            unfold stereoFirst
            rw [bind_run, pushStereo_throws_x hxp]
          rw [this]
          left; exact ⟨rfl, rfl, Or.inl ⟨hfi, rfl⟩⟩
        | ok xp =>
          rw [stereoFirst_ok hxp hl]
          dsimp only
          unfold stereoCurrent
          simp only [get_bind]
          cases hc : s.calib with
          | none =>
            right; left
            have : (firstState s k id xp l prevObs).calib = none := hc
            rw [this]; exact ⟨rfl, rfl⟩
          | some bp =>
            right; right
            have : (firstState s k id xp l prevObs).calib = some bp := hc
            rw [this]
            refine ⟨prevObs, xp, l, bp, rfl, fun _ => rfl, rfl, rfl, ?_⟩
            dsimp only
            rw [bind_run, set_ok (vinv_firstState h _ _ _ _ _) hl]
            dsimp only
            rw [pushStereo_ok hxk hl]
            simp [featState, hfi]
      · rw [if_neg hfi]
        dsimp only
        unfold stereoCurrent
        simp only [get_bind]
        cases hc : s.calib with
        | none => right; left; exact ⟨rfl, rfl⟩
        | some bp =>
          right; right
          refine ⟨prevObs, 0, l, bp, rfl, fun h => absurd h hfi, rfl, rfl, ?_⟩
          dsimp only
          rw [bind_run, set_ok h hl]
          dsimp only
          rw [pushStereo_ok hxk hl]
          simp [featState, hfi]

/-- Induction principle for the feature loop. -/
theorem stereoLoop_induct {k : Int} {xk : Key} (hxk : sym .X k = .ok xk) (p : Val) (prev : OMap Int D)
    (pp : Option (OMap Int D)) {Q : GM Val D → Prop}
    (hQ : ∀ s id prevObs obs xp l bp, VInv s → Q s → prev.find id = some prevObs →
      (isFirst pp id = true → sym .X (k - 1) = .ok xp) → sym .S id = .ok l → s.calib = some bp →
      Q (featState s k id (isFirst pp id) xp xk l prevObs obs (bp p obs)))
    (l : List (Int × D)) (s : GM Val D) (hv : VInv s) (hs : Q s)
    (hub : (stereoLoop k p prev pp l s).1 ≠ .ub) :
    Q (stereoLoop k p prev pp l s).2 ∧ VInv (stereoLoop k p prev pp l s).2 := by
  induction l generalizing s with
  | nil => exact ⟨hs, hv⟩
  | cons e l ih =>
    obtain ⟨id, obs⟩ := e
    unfold stereoLoop at hub ⊢
    rw [bind_run] at hub ⊢
    rcases stereoFeature_cases hv hxk p prev pp id obs with
      ⟨_, e⟩ | ⟨_, e, _⟩ | ⟨e, _⟩ | ⟨po, xp, lk, bp, hpo, hxp, hl, hc, e⟩
    · rw [e] at hub ⊢; exact ih s hv hs hub
    · rw [e]; exact ⟨hs, hv⟩
    · exfalso
      revert hub
      rcases hr : stereoFeature k p prev pp id obs s with ⟨o, s'⟩
      rw [hr] at e
      dsimp only at e
      subst e
      simp
    · rw [e] at hub ⊢
      exact ih _ (vinv_featState hv hl) (hQ s id po obs xp lk bp hv hs hpo hxp hl hc) hub

/-- State after the frame is stored, before any factor is made (graph_manager.cpp:131-143). -/
def frameState (s : GM Val D) (k : Int) (fs : OMap Int D) : GM Val D :=
  { s with
    features := s.features.emplace k fs
    factors := s.factors.emplace k []
    newFactors := s.newFactors.emplace k [] }

/-- State before the loop over features (graph_manager.cpp:160-163). -/
def loopState (s : GM Val D) (k : Int) : GM Val D :=
  { s with
    landmarkIds := s.landmarkIds.emplace k []
    newLandmarkIds := s.newLandmarkIds.emplace k [] }

theorem hasVal_ok {s : GM Val D} {c : Fam} {k : Int} {b : Bool} (h : hasVal s c k = .ok b) :
    ∃ raw, sym c k = .ok raw ∧ s.values.contains raw = b := by
  unfold hasVal at h
  cases hk : sym c k with
  | ok raw => rw [hk] at h; simp at h; exact ⟨raw, rfl, h⟩
  | throws => rw [hk] at h; simp at h
  | ub => rw [hk] at h; simp at h

/-- `create_stereo_factors_and_values`: refused as duplicate, stored only (first frame), refused for a missing pose or
extrinsic after the frame was stored, or the loop is run. -/
theorem createStereo_cases (k : Int) (fs : OMap Int D) (s : GM Val D) :
    (s.features.contains k = true ∧ createStereo k fs s = (.throws, s)) ∨
    (s.features.contains k = false ∧ (s.features.emplace k fs).length ≤ 1 ∧
      createStereo k fs s = (.ok (), frameState s k fs)) ∨
    (s.features.contains k = false ∧ createStereo k fs s = (.throws, frameState s k fs)) ∨
    ∃ xk p c1 c2 cur prev older, s.features.contains k = false ∧
      (s.features.emplace k fs).reverse = (c1, cur) :: (c2, prev) :: older ∧
      sym .X k = .ok xk ∧ s.values.find xk = some p ∧ s.extrinsicSet = true ∧
      createStereo k fs s =
        stereoLoop k p prev (older.head?.map (fun e => e.2)) cur (loopState (frameState s k fs) k) := by
  unfold createStereo
  simp only [get_bind]
  by_cases hc : s.features.contains k = true
  · rw [if_pos hc]; left; exact ⟨hc, rfl⟩
  · right
    have hc' : s.features.contains k = false := by simpa using hc
    rw [if_neg hc]
    simp only [modify_bind, get_bind]
    have hfs : ({ s with features := s.features.emplace k fs, factors := s.factors.emplace k [],
                         newFactors := s.newFactors.emplace k [] } : GM Val D) = frameState s k fs := rfl
    rw [hfs]
    rcases hr : (s.features.emplace k fs).reverse with _ | ⟨⟨c1, cur⟩, _ | ⟨⟨c2, prev⟩, older⟩⟩
    · left
      refine ⟨hc', ?_, rfl⟩
      have := congrArg List.length hr; simp at this; simp [this]
    · left
      refine ⟨hc', ?_, rfl⟩
      have := congrArg List.length hr; simp at this; simp [this]
    · right
      dsimp only
      unfold stereoCameraPose hasVal getVal
      cases hk : sym .X k with
      | ub => exact absurd hk (sym_ne_ub _ _)
      | throws => left; exact ⟨hc', rfl⟩
      | ok xk =>
        simp only [Outcome.bind_ok, lift_ok_bind]
        have hvf : (frameState s k fs).values = s.values := rfl
        rw [hvf]
        cases hx : s.values.contains xk with
        | false => left; exact ⟨hc', by simp⟩
        | true =>
          obtain ⟨p, hp⟩ := contains_iff.1 hx
          simp only [Bool.not_true, Bool.false_eq_true, if_false]
          rw [bind_run]
          simp only [get_bind, hvf, hp, lift_ok_bind]
          have hef : (frameState s k fs).extrinsicSet = s.extrinsicSet := rfl
          rw [hef]
          cases he : s.extrinsicSet with
          | false => left; exact ⟨hc', by simp⟩
          | true =>
            right
            exact ⟨xk, p, c1, c2, cur, prev, older, hc', rfl, rfl, hp, rfl, by simp; rfl⟩

end Graph

end Serpent
