import Verif.Props.StereoTracker
import Verif.Props.StereoEquations
import Verif.Props.BackEnd

/-!
# Statistics of the tracker and messages of the stereo node (C92, C93)
-/

namespace Serpent

namespace Stereo

open EigenRos (forLoop getAt getAt_ok)

section

variable {I K : Type} [Field K] [LinearOrder K]

/-! ### C92 -/

theorem process_frame {v : Vision I K} (hv : v.Sound) (cfg : TrackerConfig K) (s : Tracker I K) (os : List (Observation K))
    (ht : s.track = ofObs os) (left right : I) :
    (process v cfg left right s).2.frameNumber = s.frameNumber + (if v.size left = v.size right then 1 else 0) := by
  by_cases hsz : v.size left = v.size right
  · rw [if_pos hsz]
    rcases process_spec hv cfg s os ht left right with ⟨-, h, -⟩ | ⟨-, h⟩ | ⟨-, _, _, _, _, _, -, h⟩ |
      ⟨hs, ps, t, st, s', h1, -, h2⟩
    · exact absurd hsz h
    · rw [h]
    · rw [h]
    · rw [h1, h2.state]
  · rw [if_neg hsz]
    unfold process
    rw [if_pos hsz]
    simp [M.throw]

theorem run_frame {v : Vision I K} (hv : v.Sound) (cfg : TrackerConfig K) :
    ∀ (frames : List (I × I)) (s : Tracker I K) (os : List (Observation K)), Holds s os →
      (run v cfg frames s).2.frameNumber = s.frameNumber + (frames.countP fun f => v.size f.1 = v.size f.2) := by
  intro frames
  induction frames with
  | nil => intro s os _; simp [run]
  | cons f fs ih =>
    intro s os h
    have hr : (run v cfg (f :: fs) s).2 = (run v cfg fs (process v cfg f.1 f.2 s).2).2 := rfl
    have hf := process_frame hv cfg s os h.track f.1 f.2
    have hs : ∃ os', Holds (process v cfg f.1 f.2 s).2 os' := by
      rcases step hv cfg h f.1 f.2 with ⟨-, os', h', -⟩ | ⟨hs, ps, st', s', he, -, -, h'⟩
      · exact ⟨os', h'⟩
      · exact ⟨_, by rw [he]; exact h'⟩
    obtain ⟨os', h'⟩ := hs
    rw [hr, ih _ os' h', hf, List.countP_cons]
    by_cases hsz : v.size f.1 = v.size f.2
    · simp [hsz]; ring
    · simp [hsz]

/-- C92. The statistics of a frame: its number (frames with images of different sizes are not counted), the numbers of matches,
the ids, the highest id given out so far, and the id that is tracked the longest (-1 if nothing is tracked). -/
theorem C92_statistics (v : Vision I K) (hv : v.Sound) (cfg : TrackerConfig K) (df : Option (DistanceFilter K))
    (frames : List (I × I)) (j : Nat) (t : Track K) (st : Stats)
    (h : (run v cfg frames (Tracker.init df)).1[j]? = some (.ok (t, st))) :
    st.frameNumber = ((frames.take j).countP fun f => v.size f.1 = v.size f.2) ∧
    st.totalMatchCount = t.pairs.length ∧ st.totalMatchCount = st.trackedMatchCount + st.newMatchCount ∧ st.matchIds = t.ids ∧
    st.maxMatchId = (issued ((run v cfg frames (Tracker.init df)).1.take (j + 1)) : Int) - 1 ∧
    (∀ id ∈ t.ids, id ≤ st.maxMatchId) ∧
    (st.trackedMatchCount = 0 → st.longestTrackedMatchId = -1) ∧
    (0 < st.trackedMatchCount → t.ids.head? = some st.longestTrackedMatchId ∧ ∀ id ∈ t.ids, st.longestTrackedMatchId ≤ id) := by
  have hinc := C50_increasing v hv cfg df frames j t st h
  obtain ⟨f, s, os, hs, ps, s', hf, hh, hd, hse, he, ht, hp, -, hh'⟩ := run_ok hv cfg df frames j t st h
  have hfr := run_frame hv cfg (frames.take j) (Tracker.init df) [] (holds_init df)
  rw [← hse] at hfr
  have hnx := run_next hv cfg (frames.take (j + 1)) (Tracker.init df) [] (holds_init df)
  rw [run_succ v cfg frames _ j f hf, ← hse, he, run_take] at hnx
  dsimp only at hnx
  have h1 := hp.tracked
  have h2 := hp.longest
  rw [hd] at h1 h2
  have hfl : (fresh s.nextMatchId ps).length = ps.length := by
    have := congrArg List.length (fresh_ids s.nextMatchId ps)
    simpa using this
  have hmax : st.maxMatchId = s'.nextMatchId - 1 := by rw [hp.maxMatchId, hp.state]
  have hhead : 0 < st.trackedMatchCount → t.ids.head? = some st.longestTrackedMatchId := by
    intro hpos
    rw [h2, ht]
    rw [h1] at hpos
    obtain ⟨o, rest, hc⟩ := List.exists_cons_of_length_pos hpos
    simp [ofObs, hc]
  refine ⟨?_, hp.total, ?_, hp.ids, ?_, ?_, ?_, fun hpos => ⟨hhead hpos, ?_⟩⟩
  · rw [hp.frameNumber, hfr]
    simp [Tracker.init]
  · rw [hp.total, h1, hp.new, ht]
    simp [ofObs, hfl]
  · rw [hmax, hnx]
    simp [Tracker.init]
  · intro id hid
    rw [ht] at hid
    obtain ⟨o, ho, rfl⟩ := List.mem_map.1 (show id ∈ List.map (fun o : Observation K => o.id)
      (hs.filter (admitted cfg.vertical df) ++ fresh s.nextMatchId ps) from hid)
    have := hh'.below o ho
    omega
  · intro hz
    rw [h1] at hz
    rw [h2, List.eq_nil_of_length_eq_zero hz]
    simp
  · intro id hid
    have hh2 := hhead hpos
    cases hti : t.ids with
    | nil => rw [hti] at hid; simp at hid
    | cons a rest =>
      rw [hti] at hid hh2 hinc
      rw [List.head?_cons, Option.some_inj] at hh2
      rcases List.mem_cons.1 hid with rfl | hin
      · exact le_of_eq hh2.symm
      · rw [← hh2]; exact le_of_lt ((List.pairwise_cons.1 hinc).1 id hin)

/-- C92. The number of tracked matches is the number of ids in common with the frame before, if both are processed; the number
of tracked keypoints is that of the features that the flow found again. -/
theorem C92_tracked (v : Vision I K) (hv : v.Sound) (cfg : TrackerConfig K) (df : Option (DistanceFilter K))
    (frames : List (I × I)) (j : Nat) (f f' : I × I) (os os' : List (Observation K)) (st st' : Stats)
    (hf : frames[j]? = some f) (hf' : frames[j + 1]? = some f')
    (h : (run v cfg frames (Tracker.init df)).1[j]? = some (.ok (ofObs os, st)))
    (h' : (run v cfg frames (Tracker.init df)).1[j + 1]? = some (.ok (ofObs os', st'))) :
    st'.trackedMatchCount = (os'.filter fun o => o.id ∈ os.map (·.id)).length ∧
    ∃ (fl fr : List (Nat × K × K)) (moved : List (Observation K)), Flow v f.1 f'.1 (os.map (·.left)) fl ∧ Flow v f.2 f'.2 (os.map (·.right)) fr ∧
      (∀ o, o ∈ moved ↔ FoundAgain os fl fr o) ∧ (moved.map (·.id)).Nodup ∧
      st'.trackedKpCount = some (moved.length, moved.length) := by
  obtain ⟨s, ps, s', newL, newR, fl, fr, idx, costs, d1, d2, f1, f2, hi, hps, hd, hn, hh, rfl, hp⟩ :=
    run_consecutive hv cfg df frames j f f' os os' st st' hf hf' h h'
  have h1 := hp.tracked
  rw [hd] at h1
  refine ⟨?_, fl, fr, advance os fl fr, f1, f2, fun o => mem_advance, ?_, ?_⟩
  · rw [h1, List.filter_append, List.length_append]
    have e1 : ((advance os fl fr).filter (admitted cfg.vertical df)).filter (fun o => o.id ∈ os.map (·.id)) =
        (advance os fl fr).filter (admitted cfg.vertical df) := by
      apply List.filter_eq_self.2
      intro o ho
      have := (advance_sublist os fl fr).subset (List.mem_map_of_mem (List.mem_filter.1 ho).1)
      simpa using this
    have e2 : (fresh s.nextMatchId ps).filter (fun o => o.id ∈ os.map (·.id)) = [] := by
      apply List.filter_eq_nil_iff.2
      intro o ho
      have := (fresh_ge _ _ o ho).1
      simp only [decide_eq_true_eq]
      intro hm
      obtain ⟨o2, ho2, he⟩ := List.mem_map.1 hm
      have := hh.below o2 ho2
      omega
    rw [e1, e2]
    simp
  · exact (hh.increasing.sublist (advance_sublist os fl fr)).imp (fun h => ne_of_lt h)
  · rw [hp.trackedKp, if_pos hn]

/-- C92. The message of the statistics can be filled exactly after the first frame. -/
theorem C92_message (v : Vision I K) (hv : v.Sound) (cfg : TrackerConfig K) (df : Option (DistanceFilter K))
    (frames : List (I × I)) (j : Nat) (t : Track K) (st : Stats)
    (h : (run v cfg frames (Tracker.init df)).1[j]? = some (.ok (t, st))) :
    (0 < st.frameNumber → toStatsMsg st = .ok st) ∧ (st.frameNumber = 0 → toStatsMsg st = .ub) := by
  obtain ⟨f, s, os, hs, ps, s', hf, hh, hd, hse, he, ht, hp, -, hh'⟩ := run_ok hv cfg df frames j t st h
  obtain ⟨newL, newR, kl, kr, idx, costs, -, -, -, -, -, -, hk⟩ := hp.parts
  have h1 := hp.trackedKp
  have h2 := hp.frameNumber
  constructor
  · intro h3
    unfold toStatsMsg
    rw [hk, h1, if_pos (by omega), if_pos (by omega)]
  · intro h3
    unfold toStatsMsg
    rw [hk, h1, if_neg (by omega), if_neg (by omega)]

end

/-! ### C93 -/

variable {I : Type}

/-- The message of one observation. -/
def featureOf (o : Observation ℚ) : BackEnd.Feature := ⟨o.id, o.left.x, o.left.y, o.right.x, o.right.y⟩

theorem toFeatures_ofObs (os : List (Observation ℚ)) : toFeatures (ofObs os) = .ok (os.map featureOf) := by
  unfold toFeatures
  rw [(ofObs_lengths os).2.2.1]
  have h := EigenRos.forLoop_inv (n := os.length) (fun i (s : List BackEnd.Feature) => s = (os.take i).map featureOf)
    (body := fun i s =>
      getAt (ofObs os).pairs i >>= fun m =>
      indexInt (ofObs os).left m.queryIdx >>= fun l =>
      indexInt (ofObs os).right m.trainIdx >>= fun r =>
      getAt (ofObs os).ids i >>= fun id =>
      .ok (s ++ [⟨id, l.x, l.y, r.x, r.y⟩])) (s := []) (by simp) ?_
  · obtain ⟨s, h1, h2⟩ := h
    rw [h1, h2, List.take_length]
  · intro i s hi hs
    obtain ⟨a, b, c, d⟩ := ofObs_get (List.getElem?_eq_getElem hi)
    rw [getAt_ok c, Outcome.bind_ok, indexInt_nat a, Outcome.bind_ok, indexInt_nat b, Outcome.bind_ok, getAt_ok d,
      Outcome.bind_ok]
    refine ⟨_, rfl, ?_⟩
    rw [hs, List.take_succ_eq_append_getElem hi, List.map_append]
    rfl

theorem backproject_ne_ub (c : Fin 3 → ℚ) (A : Matrix (Fin 3) (Fin 3) ℚ) (b : ℚ) : backproject c A b ≠ .ub := by
  by_cases h : c 0 - c 1 = 0
  · unfold backproject
    dsimp only
    rw [if_pos h]
    simp
  · unfold backproject
    dsimp only
    rw [if_neg h]
    simp

/-- The points of the features with disparity, in order. -/
theorem trackPoints_ofObs (os : List (Observation ℚ)) (A : Matrix (Fin 3) (Fin 3) ℚ) (b : ℚ) :
    trackPoints (ofObs os) A b = .ok (os.filterMap fun o =>
      match backproject ![o.left.x, o.right.x, (o.left.y + o.right.y) / 2] A b with
      | .ok p => some p
      | _ => none) := by
  unfold trackPoints
  rw [(ofObs_lengths os).2.2.1]
  have h := EigenRos.forLoop_inv (n := os.length) (fun i (s : List (Fin 3 → ℚ)) => s = (os.take i).filterMap fun o =>
      match backproject ![o.left.x, o.right.x, (o.left.y + o.right.y) / 2] A b with
      | .ok p => some p
      | _ => none)
    (body := fun i s =>
      getAt (ofObs os).pairs i >>= fun m =>
      indexInt (ofObs os).left m.queryIdx >>= fun l =>
      indexInt (ofObs os).right m.trainIdx >>= fun r =>
      appendPoint s (backproject ![l.x, r.x, (l.y + r.y) / 2] A b)) (s := []) (by simp) ?_
  · obtain ⟨s, h1, h2⟩ := h
    rw [h1, h2, List.take_length]
  · intro i s hi hs
    obtain ⟨a, b', c, d⟩ := ofObs_get (List.getElem?_eq_getElem hi)
    rw [getAt_ok c, Outcome.bind_ok, indexInt_nat a, Outcome.bind_ok, indexInt_nat b', Outcome.bind_ok]
    rw [List.take_succ_eq_append_getElem hi, List.filterMap_append, ← hs]
    generalize hq : backproject ![os[i].left.x, os[i].right.x, (os[i].left.y + os[i].right.y) / 2] A b = q
    cases q with
    | ok p => exact ⟨_, rfl, by simp [hq]⟩
    | throws => exact ⟨_, rfl, by simp [hq]⟩
    | ub => exact absurd hq (backproject_ne_ub _ _ _)

theorem setup_spec (fcfg : FinderConfig ℚ) (li ri : CameraInfo ℚ) (s : Tracker I ℚ) :
    (setupDistanceFilter fcfg li ri s).1 ≠ .ub ∧ ∃ df, (setupDistanceFilter fcfg li ri s).2 = { s with distanceFilter := df } := by
  unfold setupDistanceFilter
  rw [M.get_bind]
  by_cases h1 : s.frameNumber = -1 ∧ fcfg.distanceEnabled = true
  · rw [if_pos h1]
    by_cases h2 : li.intrinsic 0 0 ≠ ri.intrinsic 0 0
    · rw [if_pos h2]; exact ⟨by simp [M.throw], s.distanceFilter, rfl⟩
    · rw [if_neg h2]
      by_cases h3 : (baselineOf ri.p3 ri.p0).nonPositive = true
      · refine ⟨?_, s.distanceFilter, ?_⟩
        · show ((if (baselineOf ri.p3 ri.p0).nonPositive = true then M.throw else _ : M (Tracker I ℚ) Unit) s).1 ≠ .ub
          rw [if_pos h3]; simp [M.throw]
        · show ((if (baselineOf ri.p3 ri.p0).nonPositive = true then M.throw else _ : M (Tracker I ℚ) Unit) s).2 = _
          rw [if_pos h3]; rfl
      · refine ⟨?_, some (.createFrom (li.intrinsic 0 0) (baselineOf ri.p3 ri.p0) fcfg.maxDistance fcfg.minDistance), ?_⟩
        · show ((if (baselineOf ri.p3 ri.p0).nonPositive = true then M.throw else M.modify _ : M (Tracker I ℚ) Unit) s).1 ≠ .ub
          rw [if_neg h3]; simp [M.modify]
        · show ((if (baselineOf ri.p3 ri.p0).nonPositive = true then M.throw else M.modify _ : M (Tracker I ℚ) Unit) s).2 = _
          rw [if_neg h3]; rfl
  · rw [if_neg h1]; exact ⟨by simp, s.distanceFilter, rfl⟩

/-- The messages of a processed frame. -/
theorem messages_spec (fcfg : FinderConfig ℚ) (os : List (Observation ℚ)) (st : Stats) (li ri : CameraInfo ℚ)
    (hst : fcfg.publishStats = false ∧ fcfg.printStats = false) (hb : fcfg.publishPoints = true → 0 < -ri.p3 / ri.p0) :
    ∃ points, messages fcfg (ofObs os) st li ri = .ok ⟨os.map featureOf, none, points⟩ ∧
      (fcfg.publishPoints = true → ∃ ps, points = some (ps.map some) ∧
        trackPoints (ofObs os) li.intrinsic (-ri.p3 / ri.p0) = .ok ps) := by
  unfold messages
  rw [hst.1, hst.2, if_neg (by simp), Outcome.bind_ok, if_neg (by simp), Outcome.bind_ok]
  by_cases hp : fcfg.publishPoints = true
  · rw [if_pos hp, baselineOf_good (hb hp), if_neg (by unfold Division.nonPositive; simpa using hb hp)]
    unfold pointMessage
    dsimp only
    rw [trackPoints_ofObs, Outcome.bind_ok, Outcome.bind_ok, Outcome.bind_ok, toFeatures_ofObs, Outcome.bind_ok]
    exact ⟨_, rfl, fun _ => ⟨_, rfl, rfl⟩⟩
  · rw [if_neg hp, Outcome.bind_ok, toFeatures_ofObs, Outcome.bind_ok]
    exact ⟨_, rfl, fun h => absurd h hp⟩

/-- What one callback does. -/
theorem callback_step {v : Vision I ℚ} (hv : v.Sound) (cfg : TrackerConfig ℚ) (fcfg : FinderConfig ℚ) {s : Finder I}
    {os : List (Observation ℚ)} (h : Holds s.tracker os) (ha : s.alive = true) (f : StereoInput I)
    (hst : fcfg.publishStats = false ∧ fcfg.printStats = false) (hb : fcfg.publishPoints = true → GoodBaseline f) :
    ∃ os', Holds (stereoCallback v cfg fcfg f.left f.right f.leftInfo f.rightInfo s).2.tracker os' ∧
      (stereoCallback v cfg fcfg f.left f.right f.leftInfo f.rightInfo s).2.alive = true ∧
      s.tracker.nextMatchId ≤ (stereoCallback v cfg fcfg f.left f.right f.leftInfo f.rightInfo s).2.tracker.nextMatchId ∧
      (∀ o ∈ os', o.id ∈ os.map (·.id) ∨ s.tracker.nextMatchId ≤ o.id) ∧
      ((stereoCallback v cfg fcfg f.left f.right f.leftInfo f.rightInfo s).1 = .throws ∨
        ∃ p, (stereoCallback v cfg fcfg f.left f.right f.leftInfo f.rightInfo s).1 = .ok p ∧ p.features = os'.map featureOf ∧
          (fcfg.publishPoints = true → ∃ ps, p.points = some (ps.map some) ∧
            trackPoints (ofObs os') f.leftInfo.intrinsic (-f.rightInfo.p3 / f.rightInfo.p0) = .ok ps)) := by
  unfold stereoCallback
  obtain ⟨tr, al⟩ := s
  dsimp only at ha h
  subst ha
  obtain ⟨hub, df, hs⟩ := setup_spec fcfg f.leftInfo f.rightInfo tr
  have hh : Holds { tr with distanceFilter := df } os :=
    ⟨h.track, h.increasing, h.below, h.frame, h.next, h.nonneg, h.empty⟩
  rw [M.bind_run]
  have e : onTracker (setupDistanceFilter fcfg f.leftInfo f.rightInfo) ⟨tr, true⟩ =
    ((setupDistanceFilter fcfg f.leftInfo f.rightInfo tr).1, ⟨(setupDistanceFilter fcfg f.leftInfo f.rightInfo tr).2, true⟩) := rfl
  rw [e, hs]
  cases hr : (setupDistanceFilter fcfg f.leftInfo f.rightInfo tr).1 with
  | ub => exact absurd hr hub
  | throws =>
    exact ⟨os, hh, rfl, le_refl _, fun o ho => Or.inl (List.mem_map_of_mem ho), Or.inl rfl⟩
  | ok u =>
    dsimp only
    rw [M.get_bind, M.bind_run]
    have e2 : onTracker (process (v.reading true) cfg f.left f.right) ⟨{ tr with distanceFilter := df }, true⟩ =
      ((process v cfg f.left f.right { tr with distanceFilter := df }).1,
        ⟨(process v cfg f.left f.right { tr with distanceFilter := df }).2, true⟩) := rfl
    dsimp only
    rw [e2]
    rcases step hv cfg hh f.left f.right with ⟨h1, os', h', hsub, hn, -⟩ | ⟨hyp, ps, st, s', he, hp, hsub, h'⟩
    · rw [h1]
      exact ⟨os', h', rfl, le_of_eq hn.symm, fun o ho => Or.inl (hsub.subset (List.mem_map_of_mem ho)), Or.inl rfl⟩
    · rw [he]
      dsimp only
      obtain ⟨points, hm, hpts⟩ := messages_spec fcfg (hyp.filter (admitted cfg.vertical df) ++ fresh tr.nextMatchId ps) st
        f.leftInfo f.rightInfo hst hb
      rw [M.modify_bind, hm, M.lift_ok_bind, M.modify_bind]
      refine ⟨_, h', rfl, ?_, ?_, Or.inr ⟨_, rfl, rfl, hpts⟩⟩
      · show tr.nextMatchId ≤ s'.nextMatchId
        rw [hp.state]
        dsimp only
        omega
      · intro o ho
        rcases List.mem_append.1 ho with ho | ho
        · exact Or.inl (hsub.subset (List.mem_map_of_mem ho))
        · exact Or.inr (fresh_ge _ _ o ho).1

/-- The node between callbacks, and what it published. -/
theorem finder_at {v : Vision I ℚ} (hv : v.Sound) (cfg : TrackerConfig ℚ) (fcfg : FinderConfig ℚ)
    (hst : fcfg.publishStats = false ∧ fcfg.printStats = false) :
    ∀ (frames : List (StereoInput I)) (_ : fcfg.publishPoints = true → ∀ f ∈ frames, GoodBaseline f) (s : Finder I)
      (os : List (Observation ℚ)), Holds s.tracker os → s.alive = true →
    ∀ (j : Nat) (o : Outcome Published), (runFinder v cfg fcfg frames s).1[j]? = some o →
      (o = .throws ∨ ∃ os' p, o = .ok p ∧ p.features = os'.map featureOf ∧
        (os'.map (·.id)).Pairwise (· < ·) ∧ (∀ x ∈ os', x.id ∈ os.map (·.id) ∨ s.tracker.nextMatchId ≤ x.id) ∧
        (fcfg.publishPoints = true → ∃ f ps, frames[j]? = some f ∧ p.points = some (ps.map some) ∧
          trackPoints (ofObs os') f.leftInfo.intrinsic (-f.rightInfo.p3 / f.rightInfo.p0) = .ok ps)) := by
  intro frames
  induction frames with
  | nil => intro _ s os _ _ j o h; simp [runFinder] at h
  | cons f fs ih =>
    intro hb s os h ha j o ho
    have hr : (runFinder v cfg fcfg (f :: fs) s).1 = (stereoCallback v cfg fcfg f.left f.right f.leftInfo f.rightInfo s).1 ::
      (runFinder v cfg fcfg fs (stereoCallback v cfg fcfg f.left f.right f.leftInfo f.rightInfo s).2).1 := rfl
    rw [hr] at ho
    obtain ⟨os', h', ha', hn, hids, hout⟩ := callback_step hv cfg fcfg h ha f hst (fun e => hb e f List.mem_cons_self)
    cases j with
    | zero =>
      rw [List.getElem?_cons_zero, Option.some_inj] at ho
      subst ho
      rcases hout with h1 | ⟨p, h1, h2, h3⟩
      · exact Or.inl h1
      · refine Or.inr ⟨os', p, h1, h2, h'.increasing, hids, fun e => ?_⟩
        obtain ⟨ps, a, b⟩ := h3 e
        exact ⟨f, ps, rfl, a, b⟩
    | succ j =>
      rw [List.getElem?_cons_succ] at ho
      rcases (ih (fun e g hg => hb e g (List.mem_cons_of_mem _ hg)) _ os' h' ha' j o ho) with h1 | ⟨os2, p, a, b, c, d, e⟩
      · exact Or.inl h1
      · refine Or.inr ⟨os2, p, a, b, c, ?_, e⟩
        intro x hx
        rcases d x hx with hx | hx
        · obtain ⟨y, hy, hxy⟩ := List.mem_map.1 hx
          rw [← hxy]
          exact hids y hy
        · exact Or.inr (by omega)

/-- C93, C94 (partial: the statistics are neither published nor printed, and points are published only with a positive baseline).
No callback has undefined behaviour: every callback throws or publishes. -/
theorem C94_alive_partial (v : Vision I ℚ) (hv : v.Sound) (cfg : TrackerConfig ℚ) (fcfg : FinderConfig ℚ)
    (df : Option (DistanceFilter ℚ)) (frames : List (StereoInput I)) (hst : fcfg.publishStats = false ∧ fcfg.printStats = false)
    (hb : fcfg.publishPoints = true → ∀ f ∈ frames, GoodBaseline f) :
    ∀ o ∈ (runFinder v cfg fcfg frames (Finder.init df)).1, o = .throws ∨ ∃ p, o = .ok p := by
  intro o ho
  obtain ⟨j, hj⟩ := List.mem_iff_getElem?.1 ho
  rcases finder_at hv cfg fcfg hst frames hb (Finder.init df) [] (holds_init df) rfl j o hj with h | ⟨os', p, h, -⟩
  · exact Or.inl h
  · exact Or.inr ⟨p, h⟩

/-- C93. The features of every published message have increasing ids, so no two have the same, and the back end accepts the
message and gets one entry per feature. -/
theorem C93_accepted (v : Vision I ℚ) (hv : v.Sound) (cfg : TrackerConfig ℚ) (fcfg : FinderConfig ℚ)
    (df : Option (DistanceFilter ℚ)) (frames : List (StereoInput I)) (hst : fcfg.publishStats = false ∧ fcfg.printStats = false)
    (hb : fcfg.publishPoints = true → ∀ f ∈ frames, GoodBaseline f) (p : Published)
    (hp : .ok p ∈ (runFinder v cfg fcfg frames (Finder.init df)).1) :
    (p.features.map (·.id)).Pairwise (· < ·) ∧
    ∃ m, BackEnd.fromRos p.features = .ok m ∧ m.length = p.features.length ∧
      ∀ f ∈ p.features, (f.id, (⟨f.leftX, f.rightX, (f.leftY + f.rightY) / 2⟩ : BackEnd.StereoPoint)) ∈ m := by
  obtain ⟨j, hj⟩ := List.mem_iff_getElem?.1 hp
  rcases finder_at hv cfg fcfg hst frames hb (Finder.init df) [] (holds_init df) rfl j _ hj with h | ⟨os', q, h, hf, hi, -⟩
  · cases h
  · cases Outcome.ok.inj h
    have hids : (p.features.map (·.id)).Pairwise (· < ·) := by
      rw [hf, List.map_map]
      exact hi
    refine ⟨hids, ?_⟩
    obtain ⟨a, b⟩ := BackEnd.C17_throws p.features
    have hnd : (p.features.map (·.id)).Nodup := hids.imp (fun h => ne_of_lt h)
    cases hm : BackEnd.fromRos p.features with
    | ub => exact absurd hm b
    | throws => exact absurd hnd (a.1 hm)
    | ok m =>
      obtain ⟨-, h1, h2⟩ := BackEnd.C17_entries p.features m hm
      exact ⟨m, rfl, h1, fun f hf => (h2 _ _).2 ⟨f, hf, rfl, rfl⟩⟩

/-- An id below the next one that is not in the track is not published later. -/
theorem finder_gone {v : Vision I ℚ} (hv : v.Sound) (cfg : TrackerConfig ℚ) (fcfg : FinderConfig ℚ)
    (hst : fcfg.publishStats = false ∧ fcfg.printStats = false) (frames : List (StereoInput I))
    (hb : fcfg.publishPoints = true → ∀ f ∈ frames, GoodBaseline f) (s : Finder I) (os : List (Observation ℚ))
    (h : Holds s.tracker os) (ha : s.alive = true) (id : Int) (h1 : id < s.tracker.nextMatchId) (h2 : id ∉ os.map (·.id))
    (j : Nat) (p : Published) (hj : (runFinder v cfg fcfg frames s).1[j]? = some (.ok p)) : id ∉ p.features.map (·.id) := by
  rcases finder_at hv cfg fcfg hst frames hb s os h ha j _ hj with h3 | ⟨os', q, h3, h4, -, h5, -⟩
  · cases h3
  · cases Outcome.ok.inj h3
    rw [h4, List.map_map]
    intro hm
    obtain ⟨x, hx, hxe⟩ := List.mem_map.1 hm
    have hxe : x.id = id := hxe
    rcases h5 x hx with h6 | h6
    · exact h2 (hxe ▸ h6)
    · omega

theorem finder_persists {v : Vision I ℚ} (hv : v.Sound) (cfg : TrackerConfig ℚ) (fcfg : FinderConfig ℚ)
    (hst : fcfg.publishStats = false ∧ fcfg.printStats = false) :
    ∀ (frames : List (StereoInput I)) (_ : fcfg.publishPoints = true → ∀ f ∈ frames, GoodBaseline f) (s : Finder I)
      (os : List (Observation ℚ)), Holds s.tracker os → s.alive = true →
    ∀ (i j k : Nat) (p q r : Published) (id : Int), i < j → j < k →
      (runFinder v cfg fcfg frames s).1[i]? = some (.ok p) → (runFinder v cfg fcfg frames s).1[j]? = some (.ok q) →
      (runFinder v cfg fcfg frames s).1[k]? = some (.ok r) → id ∈ p.features.map (·.id) → id ∉ q.features.map (·.id) →
      id ∉ r.features.map (·.id) := by
  -- an id in the track or below the next one, that the j-th message does not have, is gone
  have key : ∀ (frames : List (StereoInput I)) (_ : fcfg.publishPoints = true → ∀ f ∈ frames, GoodBaseline f) (s : Finder I)
      (os : List (Observation ℚ)), Holds s.tracker os → s.alive = true → ∀ (j k : Nat) (q r : Published) (id : Int), j < k →
      id < s.tracker.nextMatchId → (runFinder v cfg fcfg frames s).1[j]? = some (.ok q) →
      (runFinder v cfg fcfg frames s).1[k]? = some (.ok r) → id ∉ q.features.map (·.id) → id ∉ r.features.map (·.id) := by
    intro frames
    induction frames with
    | nil => intro _ s os _ _ j k q r id _ _ h; simp [runFinder] at h
    | cons f fs ih =>
      intro hb s os h ha j k q r id hjk hid hq hr hn
      have hrun : (runFinder v cfg fcfg (f :: fs) s).1 =
        (stereoCallback v cfg fcfg f.left f.right f.leftInfo f.rightInfo s).1 ::
        (runFinder v cfg fcfg fs (stereoCallback v cfg fcfg f.left f.right f.leftInfo f.rightInfo s).2).1 := rfl
      rw [hrun] at hq hr
      obtain ⟨os', h', ha', hnx, hids, hout⟩ := callback_step hv cfg fcfg h ha f hst (fun e => hb e f List.mem_cons_self)
      have hb' : fcfg.publishPoints = true → ∀ g ∈ fs, GoodBaseline g := fun e g hg => hb e g (List.mem_cons_of_mem _ hg)
      obtain ⟨k, rfl⟩ : ∃ k', k = k' + 1 := ⟨k - 1, by omega⟩
      rw [List.getElem?_cons_succ] at hr
      cases j with
      | zero =>
        rw [List.getElem?_cons_zero, Option.some_inj] at hq
        rcases hout with h1 | ⟨p', h1, h2, -⟩
        · rw [h1] at hq; cases hq
        · rw [h1] at hq
          cases Outcome.ok.inj hq
          rw [h2, List.map_map] at hn
          exact finder_gone hv cfg fcfg hst fs hb' _ os' h' ha' id (by omega) hn k r hr
      | succ j =>
        rw [List.getElem?_cons_succ] at hq
        exact ih hb' _ os' h' ha' j k q r id (by omega) (by omega) hq hr hn
  intro frames
  induction frames with
  | nil => intro _ s os _ _ i j k p q r id _ _ h; simp [runFinder] at h
  | cons f fs ih =>
    intro hb s os h ha i j k p q r id hij hjk hp hq hr hin hn
    have hrun : (runFinder v cfg fcfg (f :: fs) s).1 =
      (stereoCallback v cfg fcfg f.left f.right f.leftInfo f.rightInfo s).1 ::
      (runFinder v cfg fcfg fs (stereoCallback v cfg fcfg f.left f.right f.leftInfo f.rightInfo s).2).1 := rfl
    rw [hrun] at hp hq hr
    obtain ⟨os', h', ha', hnx, hids, hout⟩ := callback_step hv cfg fcfg h ha f hst (fun e => hb e f List.mem_cons_self)
    have hb' : fcfg.publishPoints = true → ∀ g ∈ fs, GoodBaseline g := fun e g hg => hb e g (List.mem_cons_of_mem _ hg)
    obtain ⟨k, rfl⟩ : ∃ k', k = k' + 1 := ⟨k - 1, by omega⟩
    obtain ⟨j, rfl⟩ : ∃ j', j = j' + 1 := ⟨j - 1, by omega⟩
    rw [List.getElem?_cons_succ] at hq hr
    cases i with
    | zero =>
      rw [List.getElem?_cons_zero, Option.some_inj] at hp
      rcases hout with h1 | ⟨p', h1, h2, -⟩
      · rw [h1] at hp; cases hp
      · rw [h1] at hp
        cases Outcome.ok.inj hp
        rw [h2, List.map_map] at hin
        obtain ⟨x, hx, hxe⟩ := List.mem_map.1 hin
        have hlt := h'.below x hx
        have hxe : x.id = id := hxe
        exact key fs hb' _ os' h' ha' j k q r id (by omega) (by omega) hq hr hn
    | succ i =>
      rw [List.getElem?_cons_succ] at hp
      exact ih hb' _ os' h' ha' i j k p q r id (by omega) (by omega) hp hq hr hin hn

/-- C93. A feature id that is missing in a published message after it was published is never published again. -/
theorem C93_never_reappears (v : Vision I ℚ) (hv : v.Sound) (cfg : TrackerConfig ℚ) (fcfg : FinderConfig ℚ)
    (df : Option (DistanceFilter ℚ)) (frames : List (StereoInput I)) (hst : fcfg.publishStats = false ∧ fcfg.printStats = false)
    (hb : fcfg.publishPoints = true → ∀ f ∈ frames, GoodBaseline f) (i j k : Nat) (p q r : Published) (id : Int)
    (hij : i < j) (hjk : j < k) (hp : (runFinder v cfg fcfg frames (Finder.init df)).1[i]? = some (.ok p))
    (hq : (runFinder v cfg fcfg frames (Finder.init df)).1[j]? = some (.ok q))
    (hr : (runFinder v cfg fcfg frames (Finder.init df)).1[k]? = some (.ok r))
    (h1 : id ∈ p.features.map (·.id)) (h2 : id ∉ q.features.map (·.id)) : id ∉ r.features.map (·.id) :=
  finder_persists hv cfg fcfg hst frames hb (Finder.init df) [] (holds_init df) rfl i j k p q r id hij hjk hp hq hr h1 h2

/-- C93. The published points are exactly the points that the two cameras see at the features with a disparity (the vertical
coordinate is the mean of the two). -/
theorem C93_points (v : Vision I ℚ) (hv : v.Sound) (cfg : TrackerConfig ℚ) (fcfg : FinderConfig ℚ)
    (df : Option (DistanceFilter ℚ)) (frames : List (StereoInput I)) (hst : fcfg.publishStats = false ∧ fcfg.printStats = false)
    (hpub : fcfg.publishPoints = true) (hb : ∀ f ∈ frames, GoodBaseline f) (j : Nat) (f : StereoInput I) (p : Published)
    (hf : frames[j]? = some f) (hp : (runFinder v cfg fcfg frames (Finder.init df)).1[j]? = some (.ok p))
    (hfx : 0 < f.leftInfo.intrinsic 0 0) (hfy : 0 < f.leftInfo.intrinsic 1 1) :
    ∃ ps : List (Fin 3 → ℚ), p.points = some (ps.map some) ∧ ∀ x, x ∈ ps ↔ x 2 ≠ 0 ∧ ∃ ft ∈ p.features, ft.leftX ≠ ft.rightX ∧
      Sees f.leftInfo.intrinsic (-f.rightInfo.p3 / f.rightInfo.p0) x ![ft.leftX, ft.rightX, (ft.leftY + ft.rightY) / 2] := by
  have hbase := hb f (List.mem_of_getElem? hf)
  rcases finder_at hv cfg fcfg hst frames (fun _ => hb) (Finder.init df) [] (holds_init df) rfl j _ hp with
    h3 | ⟨os', q, h3, h4, -, -, h5⟩
  · cases h3
  · cases Outcome.ok.inj h3
    obtain ⟨g, ps, hg, h6, h7⟩ := h5 hpub
    rw [hf, Option.some_inj] at hg
    subst hg
    rw [trackPoints_ofObs] at h7
    refine ⟨ps, h6, fun x => ?_⟩
    rw [← Outcome.ok.inj h7, List.mem_filterMap]
    constructor
    · rintro ⟨o, ho, hx⟩
      by_cases hd : o.left.x = o.right.x
      · rw [(C56_zero_disparity _ _ _).1.2 hd] at hx
        cases hx
      · obtain ⟨y, h8, h9, h10, -, -⟩ := C56_backproject f.leftInfo.intrinsic (-f.rightInfo.p3 / f.rightInfo.p0)
          ![o.left.x, o.right.x, (o.left.y + o.right.y) / 2] hfx hfy hbase hd
        rw [h8] at hx
        cases Option.some_inj.1 hx
        exact ⟨h10, featureOf o, by rw [h4]; exact List.mem_map_of_mem ho, hd, h9⟩
    · rintro ⟨hx2, ft, hft, hd, hs⟩
      rw [h4] at hft
      obtain ⟨o, ho, rfl⟩ := List.mem_map.1 hft
      obtain ⟨y, h8, h9, -, -, h11⟩ := C56_backproject f.leftInfo.intrinsic (-f.rightInfo.p3 / f.rightInfo.p0)
          ![o.left.x, o.right.x, (o.left.y + o.right.y) / 2] hfx hfy hbase hd
      refine ⟨o, ho, ?_⟩
      rw [h8, h11 x hx2 hs]

end Stereo

end Serpent
