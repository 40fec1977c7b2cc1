import Verif.Props.StereoFinder
import Verif.Props.StereoTrackerWitness

/-!
# The ids and the frame numbers of the tracker are in the range of an `int` (C50)

`next_match_id` and `frame_number_` are `int` (stereo_feature_tracker.hpp:191-192), and the model has unbounded integers. The
theorems say how many frames the model and the code agree for.
-/

namespace Serpent

namespace Stereo

section

variable {I K : Type} [Field K] [LinearOrder K]

omit [Field K] in
theorem candidates_length (threshold : K) (kl kr : List (KeyPoint K)) (idx : List Int) (costs : List K) :
    (candidates threshold kl kr idx costs).length ≤ kl.length := by
  unfold candidates
  refine le_trans (List.length_filterMap_le _ _) ?_
  rw [List.length_zip]
  exact min_le_left _ _

/-- A frame gives at most one new match for each keypoint that the detector finds in the left image. -/
theorem new_le_detected {v : Vision I K} {cfg : TrackerConfig K} {s : Tracker I K} {os : List (Observation K)}
    {left right : I} {hs : List (Observation K)} {ps : List (Pair K)} {t : Track K} {st : Stats} {s' : Tracker I K}
    (hp : Processed v cfg s os left right hs ps t st s') :
    ∃ ks, v.detect left = .ok ks ∧ st.newMatchCount ≤ ks.length := by
  obtain ⟨newL, newR, kl, kr, idx, costs, h1, -, hm, -, hps, -, -⟩ := hp.parts
  refine ⟨newL, h1, ?_⟩
  rw [hp.new, hps]
  refine le_trans (List.length_filter_le _ _) (le_trans (candidates_length _ _ _ _ _) ?_)
  rcases hm with ⟨-, fl, fr, -, -, -, -, -, h, -⟩ | ⟨-, -, h, -⟩
  · rw [h]
    exact List.length_filter_le _ _
  · rw [h]

omit [Field K] [LinearOrder K] in
theorem issued_le (outs : List (Outcome (Track K × Stats))) (N : Nat)
    (h : ∀ (j : Nat) (t : Track K) (st : Stats), outs[j]? = some (.ok (t, st)) → st.newMatchCount ≤ N) :
    issued outs ≤ N * outs.length := by
  unfold issued
  have := List.sum_le_card_nsmul (outs.map fun o => match o with
    | .ok (_, st) => st.newMatchCount
    | _ => 0) N (by
      intro x hx
      obtain ⟨o, ho, rfl⟩ := List.mem_map.1 hx
      match o, ho with
      | .ok (t, st), ho =>
        obtain ⟨j, hj⟩ := List.mem_iff_getElem?.1 ho
        exact h j t st hj
      | .throws, _ => exact Nat.zero_le _
      | .ub, _ => exact Nat.zero_le _)
  rw [List.length_map, smul_eq_mul, mul_comm] at this
  exact this

/-- C50. A frame gives at most one new match per keypoint detected in its left image. If the detector never finds more than
`N` keypoints in an image, then the ids of the `j`-th frame are not negative and less than `N * (j + 1)`, and its number is
at most `j`. -/
theorem C50_range (v : Vision I K) (hv : v.Sound) (cfg : TrackerConfig K) (df : Option (DistanceFilter K))
    (frames : List (I × I)) (N : Nat) (hN : ∀ i ks, v.detect i = .ok ks → ks.length ≤ N) (j : Nat) (t : Track K) (st : Stats)
    (h : (run v cfg frames (Tracker.init df)).1[j]? = some (.ok (t, st))) :
    st.newMatchCount ≤ N ∧ (∀ id ∈ t.ids, 0 ≤ id ∧ id < N * (j + 1)) ∧ -1 ≤ st.maxMatchId ∧ st.maxMatchId < N * (j + 1) ∧
    0 ≤ st.frameNumber ∧ st.frameNumber ≤ j := by
  have hnew : ∀ (j : Nat) (t : Track K) (st : Stats), (run v cfg frames (Tracker.init df)).1[j]? = some (.ok (t, st)) →
      st.newMatchCount ≤ N := by
    intro j t st h
    obtain ⟨f, s, os, hs, ps, s', -, -, -, -, -, -, hp, -, -⟩ := run_ok hv cfg df frames j t st h
    obtain ⟨ks, h1, h2⟩ := new_le_detected hp
    exact le_trans h2 (hN _ _ h1)
  obtain ⟨h1, -, -, -, h2, h3, -, -⟩ := C92_statistics v hv cfg df frames j t st h
  obtain ⟨f, s, os, hs, ps, s', hf, -, -, -, -, ht, hp, -, hh⟩ := run_ok hv cfg df frames j t st h
  have hlen : issued ((run v cfg frames (Tracker.init df)).1.take (j + 1)) ≤ N * (j + 1) := by
    refine le_trans (issued_le _ N ?_) (Nat.mul_le_mul_left N (List.length_take_le _ _))
    intro i t st hi
    rw [List.getElem?_take] at hi
    split at hi
    · exact hnew i t st hi
    · cases hi
  have hmax : st.maxMatchId < N * (j + 1) := by
    have : ((issued ((run v cfg frames (Tracker.init df)).1.take (j + 1)) : Nat) : Int) ≤ ((N * (j + 1) : Nat) : Int) := by
      exact_mod_cast hlen
    push_cast at this
    omega
  refine ⟨hnew j t st h, fun id hid => ⟨?_, lt_of_le_of_lt (h3 id hid) hmax⟩, by omega, hmax, ?_, ?_⟩
  · rw [ht] at hid
    obtain ⟨o, ho, rfl⟩ := List.mem_map.1 hid
    exact hh.nonneg o ho
  · rw [h1]
    exact Int.natCast_nonneg _
  · rw [h1]
    have : (frames.take j).countP (fun f => v.size f.1 = v.size f.2) ≤ j :=
      le_trans List.countP_le_length (List.length_take_le _ _)
    exact_mod_cast this

/-- C50. No `int` of the tracker overflows while the number of frames, times the largest number of keypoints the detector
finds in an image, is less than 2^31; also if frames in between threw an exception. -/
theorem C50_no_overflow (v : Vision I K) (hv : v.Sound) (cfg : TrackerConfig K) (df : Option (DistanceFilter K))
    (frames : List (I × I)) (N : Nat) (hpos : 0 < N) (hN : ∀ i ks, v.detect i = .ok ks → ks.length ≤ N)
    (hs : N * frames.length < 2 ^ 31) :
    0 ≤ (run v cfg frames (Tracker.init df)).2.nextMatchId ∧ (run v cfg frames (Tracker.init df)).2.nextMatchId < 2 ^ 31 ∧
    -1 ≤ (run v cfg frames (Tracker.init df)).2.frameNumber ∧ (run v cfg frames (Tracker.init df)).2.frameNumber < 2 ^ 31 ∧
    ∀ (j : Nat) (t : Track K) (st : Stats), (run v cfg frames (Tracker.init df)).1[j]? = some (.ok (t, st)) →
      ∀ id ∈ t.ids, 0 ≤ id ∧ id < 2 ^ 31 := by
  have hl := run_length v cfg frames (Tracker.init df)
  have hn := run_next hv cfg frames (Tracker.init df) [] (holds_init df)
  have hf := run_frame hv cfg frames (Tracker.init df) [] (holds_init df)
  have hi := issued_le (run v cfg frames (Tracker.init df)).1 N
    (fun j t st h => (C50_range v hv cfg df frames N hN j t st h).1)
  rw [hl] at hi
  have hc : frames.countP (fun f => v.size f.1 = v.size f.2) ≤ frames.length := List.countP_le_length
  have hfl : frames.length ≤ N * frames.length := Nat.le_mul_of_pos_left _ hpos
  have e1 : (Tracker.init df : Tracker I K).nextMatchId = 0 := rfl
  have e2 : (Tracker.init df : Tracker I K).frameNumber = -1 := rfl
  rw [e1] at hn
  rw [e2] at hf
  refine ⟨by omega, by omega, by omega, by omega, ?_⟩
  intro j t st h id hid
  obtain ⟨-, h1, -⟩ := C50_range v hv cfg df frames N hN j t st h
  have hj : j < frames.length := by rw [← hl]; exact (List.getElem?_eq_some_iff.1 h).1
  have : N * (j + 1) ≤ N * frames.length := Nat.mul_le_mul_left N hj
  have h2 := h1 id hid
  refine ⟨h2.1, lt_trans h2.2 ?_⟩
  have h3 : ((N * (j + 1) : Nat) : Int) < 2 ^ 31 := by
    have : N * (j + 1) < 2 ^ 31 := lt_of_le_of_lt this hs
    exact_mod_cast this
  push_cast at h3
  exact h3

-- The moving camera detects at most one keypoint per image, and gives out the ids 0 and 1 in five frames.
example : (∀ i ks, (moving false).detect i = .ok ks → ks.length ≤ 1) ∧
    (run (moving false) movingConfig (framesOf [0, 1, 2, 60, 95]) (Tracker.init none)).2.nextMatchId = 2 := by
  refine ⟨?_, by decide +kernel⟩
  intro i ks h
  rw [← Outcome.ok.inj h]
  split
  · simp
  · split <;> simp

end

end Stereo

end Serpent
