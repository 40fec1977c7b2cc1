import Verif.Lemmas.StereoHistory
import Verif.Props.StereoMatcher

/-!
# Histories of the stereo feature tracker (C50, C51, C89-C92)

A history is any sequence of stereo frames, given to a new tracker; a call may throw (images of different sizes, an exception
of a vision algorithm), and the next frame is processed nevertheless.
-/

namespace Serpent

namespace Stereo

variable {I K : Type} [Field K] [LinearOrder K]

/-! ### C51 -/

/-- C51. Whatever the frames and the vision algorithms do, no call has undefined behaviour; in every output the keypoints,
matches and ids have equal lengths, and the i-th match connects the i-th keypoints. -/
theorem C51_consistent (v : Vision I K) (hv : v.Sound) (cfg : TrackerConfig K) (df : Option (DistanceFilter K))
    (frames : List (I × I)) (j : Nat) (o : Outcome (Track K × Stats))
    (h : (run v cfg frames (Tracker.init df)).1[j]? = some o) :
    o = .throws ∨ ∃ t st, o = .ok (t, st) ∧ t.left.length = t.pairs.length ∧ t.right.length = t.pairs.length ∧
      t.ids.length = t.pairs.length ∧
      ∀ (i : Nat) (m : DMatch K), t.pairs[i]? = some m → m.queryIdx = i ∧ m.trainIdx = i := by
  have hj : j < frames.length := by
    rw [← run_length v cfg frames (Tracker.init df)]; exact (List.getElem?_eq_some_iff.1 h).1
  obtain ⟨s, os, hh, hd, he, hs⟩ := run_at hv cfg frames (Tracker.init df) [] (holds_init df) j _
    (List.getElem?_eq_getElem hj)
  rw [he, Option.some_inj] at h
  rcases step hv cfg hh frames[j].1 frames[j].2 with ⟨h1, -⟩ | ⟨hs', ps, st', s', he', -⟩
  · exact Or.inl (h ▸ h1)
  · rw [he'] at h
    refine Or.inr ⟨_, _, h.symm, by simp [ofObs], by simp [ofObs], by simp [ofObs], ?_⟩
    intro i m hm
    simp only [ofObs, List.getElem?_map, List.getElem?_zipIdx, Option.map_eq_some_iff] at hm
    obtain ⟨p, ⟨o, -, rfl⟩, rfl⟩ := hm
    simp

/-- C51. The number of matches is the number of tracked matches plus the number of new ones. The tracked matches come first,
and satisfy the stereo geometry (and the depth limits). -/
theorem C51_tracked [IsStrictOrderedRing K] (v : Vision I K) (hv : v.Sound) (cfg : TrackerConfig K)
    (df : Option (DistanceFilter K)) (frames : List (I × I)) (j : Nat) (t : Track K) (st : Stats)
    (h : (run v cfg frames (Tracker.init df)).1[j]? = some (.ok (t, st))) :
    t.pairs.length = st.trackedMatchCount + st.newMatchCount ∧
    ∀ (i : Nat) (l r : KeyPoint K), i < st.trackedMatchCount → t.left[i]? = some l → t.right[i]? = some r →
      Geometry cfg.vertical l r ∧ DepthOk df l r := by
  obtain ⟨f, s, os, hs, ps, s', -, -, hd, -, -, ht, hp, -, -⟩ := run_ok hv cfg df frames j t st h
  have h1 := hp.tracked
  have h2 := hp.new
  rw [hd] at h1
  subst ht
  have hfl : (fresh s.nextMatchId ps).length = ps.length := by
    have := congrArg List.length (fresh_ids s.nextMatchId ps)
    simpa using this
  refine ⟨by simp [ofObs, h1, h2, hfl], ?_⟩
  intro i l r hi hl hr
  rw [h1] at hi
  simp only [ofObs, List.map_append] at hl hr
  rw [List.getElem?_append_left (by simpa using hi), List.getElem?_map, Option.map_eq_some_iff] at hl hr
  obtain ⟨o, ho, rfl⟩ := hl
  obtain ⟨o2, ho2, rfl⟩ := hr
  rw [ho, Option.some_inj] at ho2
  subst ho2
  exact admitted_iff.1 (List.mem_filter.1 (List.mem_of_getElem? ho)).2

/-! ### C50 -/

/-- C50. The ids of an output are increasing, so no two matches have the same. -/
theorem C50_increasing (v : Vision I K) (hv : v.Sound) (cfg : TrackerConfig K) (df : Option (DistanceFilter K))
    (frames : List (I × I)) (j : Nat) (t : Track K) (st : Stats)
    (h : (run v cfg frames (Tracker.init df)).1[j]? = some (.ok (t, st))) : t.ids.Pairwise (· < ·) := by
  obtain ⟨f, s, os, hs, ps, s', -, -, -, -, -, ht, -, -, hh⟩ := run_ok hv cfg df frames j t st h
  rw [ht]
  exact hh.increasing

/-- C50. An id of an output is an id of the latest output before, or greater than all ids of the outputs before. -/
theorem C50_carried_or_new (v : Vision I K) (hv : v.Sound) (cfg : TrackerConfig K) (df : Option (DistanceFilter K))
    (frames : List (I × I)) (j : Nat) (t : Track K) (st : Stats) (id : Int)
    (h : (run v cfg frames (Tracker.init df)).1[j]? = some (.ok (t, st))) (hid : id ∈ t.ids) :
    (∃ (i : Nat) (t' : Track K) (st' : Stats), i < j ∧ (run v cfg frames (Tracker.init df)).1[i]? = some (.ok (t', st')) ∧
      id ∈ t'.ids ∧ ∀ k : Nat, i < k → k < j → (run v cfg frames (Tracker.init df)).1[k]? = some .throws) ∨
    ∀ (i : Nat) (t' : Track K) (st' : Stats), i < j → (run v cfg frames (Tracker.init df)).1[i]? = some (.ok (t', st')) →
      ∀ x ∈ t'.ids, x < id := by
  rcases run_carried hv cfg frames (Tracker.init df) [] (holds_init df) j t st id h hid with h1 | ⟨-, h1⟩ | ⟨-, h1⟩
  · exact Or.inl h1
  · simp at h1
  · exact Or.inr h1

/-- C50. An id that is in two outputs is in every output between them: an id that disappears never reappears. -/
theorem C50_never_reappears (v : Vision I K) (hv : v.Sound) (cfg : TrackerConfig K) (df : Option (DistanceFilter K))
    (frames : List (I × I)) (i j k : Nat) (t1 t2 t3 : Track K) (st1 st2 st3 : Stats) (id : Int) (hij : i < j) (hjk : j < k)
    (h1 : (run v cfg frames (Tracker.init df)).1[i]? = some (.ok (t1, st1))) (hid : id ∈ t1.ids)
    (h2 : (run v cfg frames (Tracker.init df)).1[j]? = some (.ok (t2, st2))) (hno : id ∉ t2.ids)
    (h3 : (run v cfg frames (Tracker.init df)).1[k]? = some (.ok (t3, st3))) : id ∉ t3.ids := by
  induction k using Nat.strong_induction_on generalizing t3 st3 with
  | _ k ih =>
    intro hin
    rcases C50_carried_or_new v hv cfg df frames k t3 st3 id h3 hin with ⟨n, t', st', hn, hn2, hn3, hn4⟩ | hall
    · rcases Nat.lt_trichotomy n j with hlt | heq | hgt
      · have := hn4 j hlt hjk
        rw [h2] at this
        cases this
      · subst heq
        rw [h2, Option.some_inj] at hn2
        cases Outcome.ok.inj hn2
        exact hno hn3
      · exact ih n hn t' st' hgt hn2 hn3
    · exact absurd (hall i t1 st1 (by omega) h1 id hid) (lt_irrefl _)

/-- C50. The new ids of an output are consecutive, and start at the number of ids given out so far. -/
theorem C50_dense (v : Vision I K) (hv : v.Sound) (cfg : TrackerConfig K) (df : Option (DistanceFilter K))
    (frames : List (I × I)) (j : Nat) (t : Track K) (st : Stats)
    (h : (run v cfg frames (Tracker.init df)).1[j]? = some (.ok (t, st))) :
    t.ids.drop st.trackedMatchCount = (List.range st.newMatchCount).map (fun k : Nat =>
      ((issued ((run v cfg frames (Tracker.init df)).1.take j) + k : Nat) : Int)) := by
  obtain ⟨f, s, os, hs, ps, s', -, -, hd, hse, -, ht, hp, -, -⟩ := run_ok hv cfg df frames j t st h
  have h1 := hp.tracked
  rw [hd] at h1
  have hn := run_next hv cfg (frames.take j) (Tracker.init df) [] (holds_init df)
  rw [← hse, run_take] at hn
  subst ht
  rw [h1, hp.new]
  simp only [ofObs, List.map_append]
  rw [List.drop_append_of_le_length (by simp), List.drop_of_length_le (by simp), List.nil_append, fresh_ids, hn]
  simp [Tracker.init]

/-! ### C89 -/

/-- C89. Between two consecutive processed frames, the features that are kept are exactly the ones that the optical flow from
the previous to the current images finds again in both images, at places that satisfy the stereo geometry and the depth
limits; they are reported at these places, with the id (and the cost) they had. -/
theorem C89_follows_flow [IsStrictOrderedRing K] (v : Vision I K) (hv : v.Sound) (cfg : TrackerConfig K)
    (df : Option (DistanceFilter K)) (frames : List (I × I)) (j : Nat) (f f' : I × I) (os os' : List (Observation K))
    (st st' : Stats) (hf : frames[j]? = some f) (hf' : frames[j + 1]? = some f')
    (h : (run v cfg frames (Tracker.init df)).1[j]? = some (.ok (ofObs os, st)))
    (h' : (run v cfg frames (Tracker.init df)).1[j + 1]? = some (.ok (ofObs os', st'))) :
    ∃ fl fr, Flow v f.1 f'.1 (os.map (·.left)) fl ∧ Flow v f.2 f'.2 (os.map (·.right)) fr ∧
      ∀ o' : Observation K, (o' ∈ os' ∧ o'.id ∈ os.map (·.id)) ↔
        FoundAgain os fl fr o' ∧ Geometry cfg.vertical o'.left o'.right ∧ DepthOk df o'.left o'.right := by
  obtain ⟨s, ps, s', newL, newR, fl, fr, idx, costs, -, -, f1, f2, -, -, -, -, hh, rfl, -⟩ :=
    run_consecutive hv cfg df frames j f f' os os' st st' hf hf' h h'
  refine ⟨fl, fr, f1, f2, fun o' => ?_⟩
  rw [List.mem_append, List.mem_filter, admitted_iff, mem_advance]
  constructor
  · rintro ⟨h1 | h1, h2⟩
    · exact h1
    · obtain ⟨o, ho, he⟩ := List.mem_map.1 h2
      have := hh.below o ho
      have := (fresh_ge _ _ o' h1).1
      omega
  · intro h1
    refine ⟨Or.inl h1, ?_⟩
    obtain ⟨k, o, pl, pr, hk, -, -, rfl⟩ := h1.1
    exact List.mem_map.2 ⟨o, List.mem_of_getElem? hk, rfl⟩

/-! ### C90 -/

/-- C90. An output consists of tracked and new features. The new ones are exactly the pairs that the matcher found among
keypoints detected in the two images, with a cost below the threshold and within the depth limits. The keypoints given to the
matcher are farther than the minimum distance from every tracked feature, in their image. -/
theorem C90_new [IsStrictOrderedRing K] (v : Vision I K) (hv : v.Sound) (cfg : TrackerConfig K) (df : Option (DistanceFilter K))
    (frames : List (I × I)) (j : Nat) (f : I × I) (os : List (Observation K)) (st : Stats) (hf : frames[j]? = some f)
    (h : (run v cfg frames (Tracker.init df)).1[j]? = some (.ok (ofObs os, st))) :
    ∃ tracked new detL detR kl kr idx costs, os = tracked ++ new ∧ tracked.length = st.trackedMatchCount ∧
      new.length = st.newMatchCount ∧ v.detect f.1 = .ok detL ∧ v.detect f.2 = .ok detR ∧
      v.indices kl kr f.1 f.2 = .ok (idx, costs) ∧
      (∀ kp ∈ kl, kp ∈ detL ∧ ∀ o ∈ tracked, cfg.newFeatureSqrDist < sqrDistance o.left kp) ∧
      (∀ kp ∈ kr, kp ∈ detR ∧ ∀ o ∈ tracked, cfg.newFeatureSqrDist < sqrDistance o.right kp) ∧
      ∀ l r c, (∃ o ∈ new, o.left = l ∧ o.right = r ∧ o.distance = c) ↔
        ∃ i k : Nat, kl[i]? = some l ∧ idx[i]? = some (k : Int) ∧ kr[k]? = some r ∧ costs[i]? = some c ∧
          c < cfg.costThreshold ∧ DepthOk df l r := by
  obtain ⟨g, s, os0, hs, ps, s', hg, -, hd, -, -, ht, hp, -, -⟩ := run_ok hv cfg df frames j _ st h
  rw [hf, Option.some_inj] at hg
  subst hg
  obtain ⟨detL, detR, kl, kr, idx, costs, d1, d2, hm, hi, hps, -⟩ := hp.parts
  have hfl : (fresh s.nextMatchId ps).length = ps.length := by
    have := congrArg List.length (fresh_ids s.nextMatchId ps)
    simpa using this
  have h1 := hp.tracked
  rw [hd] at h1 hps
  refine ⟨_, _, detL, detR, kl, kr, idx, costs, ofObs_injective ht, h1.symm, by rw [hfl, hp.new], d1, d2, hi, ?_, ?_, ?_⟩
  · intro kp hkp
    rcases hm with ⟨-, fl, fr, -, -, -, -, rfl, rfl, rfl⟩ | ⟨-, rfl, rfl, rfl⟩
    · rw [mem_removeClose] at hkp
      exact ⟨hkp.1, fun o ho => hkp.2 _ (List.mem_map_of_mem (List.mem_filter.1 ho).1)⟩
    · exact ⟨hkp, by simp⟩
  · intro kp hkp
    rcases hm with ⟨-, fl, fr, -, -, -, -, rfl, rfl, rfl⟩ | ⟨-, rfl, rfl, rfl⟩
    · rw [mem_removeClose] at hkp
      exact ⟨hkp.1, fun o ho => hkp.2 _ (List.mem_map_of_mem (List.mem_filter.1 ho).1)⟩
    · exact ⟨hkp, by simp⟩
  · intro l r c
    have hmem : (∃ o ∈ fresh s.nextMatchId ps, o.left = l ∧ o.right = r ∧ o.distance = c) ↔ (⟨l, r, c⟩ : Pair K) ∈ ps := by
      unfold fresh
      constructor
      · rintro ⟨o, ho, rfl, rfl, rfl⟩
        obtain ⟨p, hp', rfl⟩ := List.mem_map.1 ho
        rw [List.mem_zipIdx_iff_getElem?] at hp'
        exact List.mem_of_getElem? hp'
      · intro hm'
        obtain ⟨i, hi'⟩ := List.mem_iff_getElem?.1 hm'
        exact ⟨_, List.mem_map_of_mem (List.mem_zipIdx_iff_getElem?.2 (show ps[(i : Nat)]? = some _ from hi') : (_, i) ∈ ps.zipIdx),
          rfl, rfl, rfl⟩
    rw [hmem, hps, List.mem_filter, mem_candidates, depthOk_iff]
    constructor
    · rintro ⟨⟨i, k, a, b, c', d, e⟩, hw⟩
      exact ⟨i, k, a, b, c', d, e, hw⟩
    · rintro ⟨i, k, a, b, c', d, e, hw⟩
      exact ⟨⟨i, k, a, b, c', d, e⟩, hw⟩

/-- C90. Between consecutive processed frames, the keypoints given to the matcher are exactly the detected ones that are
farther than the minimum distance from every feature that the flow found again. -/
theorem C90_keypoints (v : Vision I K) (hv : v.Sound) (cfg : TrackerConfig K) (df : Option (DistanceFilter K))
    (frames : List (I × I)) (j : Nat) (f f' : I × I) (os os' : List (Observation K)) (st st' : Stats)
    (hf : frames[j]? = some f) (hf' : frames[j + 1]? = some f')
    (h : (run v cfg frames (Tracker.init df)).1[j]? = some (.ok (ofObs os, st)))
    (h' : (run v cfg frames (Tracker.init df)).1[j + 1]? = some (.ok (ofObs os', st'))) :
    ∃ fl fr detL detR kl kr idx costs, Flow v f.1 f'.1 (os.map (·.left)) fl ∧ Flow v f.2 f'.2 (os.map (·.right)) fr ∧
      v.detect f'.1 = .ok detL ∧ v.detect f'.2 = .ok detR ∧ v.indices kl kr f'.1 f'.2 = .ok (idx, costs) ∧
      kl.Sublist detL ∧ kr.Sublist detR ∧
      (∀ kp, kp ∈ kl ↔ kp ∈ detL ∧ ∀ o, FoundAgain os fl fr o → cfg.newFeatureSqrDist < sqrDistance o.left kp) ∧
      (∀ kp, kp ∈ kr ↔ kp ∈ detR ∧ ∀ o, FoundAgain os fl fr o → cfg.newFeatureSqrDist < sqrDistance o.right kp) ∧
      ∀ o ∈ os', o.id ∉ os.map (·.id) → ∃ i k : Nat, kl[i]? = some o.left ∧ idx[i]? = some (k : Int) ∧
        kr[k]? = some o.right ∧ costs[i]? = some o.distance := by
  obtain ⟨s, ps, s', newL, newR, fl, fr, idx, costs, d1, d2, f1, f2, hi, hps, -, -, hh, rfl, -⟩ :=
    run_consecutive hv cfg df frames j f f' os os' st st' hf hf' h h'
  refine ⟨fl, fr, newL, newR, _, _, idx, costs, f1, f2, d1, d2, hi, List.filter_sublist, List.filter_sublist, ?_, ?_, ?_⟩
  · intro kp
    rw [mem_removeClose]
    simp [mem_advance]
  · intro kp
    rw [mem_removeClose]
    simp [mem_advance]
  · intro o ho hn
    rcases List.mem_append.1 ho with ho | ho
    · exact absurd ((advance_sublist os fl fr).subset (List.mem_map_of_mem (List.mem_filter.1 ho).1)) hn
    · unfold fresh at ho
      obtain ⟨p, hp', rfl⟩ := List.mem_map.1 ho
      rw [List.mem_zipIdx_iff_getElem?] at hp'
      have := List.mem_of_getElem? hp'
      rw [hps, List.mem_filter, mem_candidates] at this
      obtain ⟨⟨i, k, a, b, c, d, -⟩, -⟩ := this
      exact ⟨i, k, a, b, c, d⟩

/-! ### C91 -/

/-- C91 (partial: with a distance filter). Every feature of every output has a positive disparity. -/
theorem C91_disparity_partial [IsStrictOrderedRing K] (v : Vision I K) (hv : v.Sound) (cfg : TrackerConfig K)
    (d : DistanceFilter K) (frames : List (I × I)) (j : Nat) (f : I × I) (os : List (Observation K)) (st : Stats)
    (hf : frames[j]? = some f)
    (h : (run v cfg frames (Tracker.init (some d))).1[j]? = some (.ok (ofObs os, st))) :
    ∀ o ∈ os, o.right.x < o.left.x := by
  obtain ⟨tracked, new, detL, detR, kl, kr, idx, costs, rfl, hl, -, -, -, -, -, -, hn⟩ :=
    C90_new v hv cfg (some d) frames j f os st hf h
  obtain ⟨-, ht⟩ := C51_tracked v hv cfg (some d) frames j _ st h
  intro o ho
  rcases List.mem_append.1 ho with ho | ho
  · obtain ⟨i, hi⟩ := List.mem_iff_getElem?.1 ho
    have hlt := (List.getElem?_eq_some_iff.1 hi).1
    have hi' : (tracked ++ new)[i]? = some o := by rw [List.getElem?_append_left hlt]; exact hi
    obtain ⟨a, b, -⟩ := ofObs_get hi'
    exact (ht i _ _ (by omega) a b).1.1
  · obtain ⟨i, k, -, -, -, -, -, hd⟩ := (hn o.left o.right o.distance).1 ⟨o, ho, rfl, rfl, rfl⟩
    exact hd.1

end Stereo

end Serpent
