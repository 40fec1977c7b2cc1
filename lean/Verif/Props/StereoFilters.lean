import Verif.Lemmas.Stereo
import Mathlib.Tactic.NormNum
import Mathlib.Algebra.Order.Ring.Rat
import Mathlib.Algebra.Field.Rat

/-!
# C52 and C87: match filters
-/

namespace Serpent

namespace Stereo

open EigenRos (getAt getAt_ok)

variable {K : Type} [Field K] [LinearOrder K]

omit [Field K] in
/-- C52, descriptor distance: exactly the matches with a distance of at most the threshold. -/
theorem C52_distance (threshold : K) (ms : List (DMatch K)) :
    ∃ out idx, distanceMatchFilter threshold ms = .ok (out, idx) ∧ Kept (fun m => m.distance ≤ threshold) ms out idx := by
  apply filter_kept
  · intro i x s hx hP
    rw [getAt_ok hx, Outcome.bind_ok, if_pos hP]
  · intro i x s hx hP
    rw [getAt_ok hx, Outcome.bind_ok, if_neg hP]

/-- C52, stereo geometry: if all matches refer to keypoints, exactly those with the stereo geometry are kept. -/
theorem C52_geometry (vertical : K) (query train : List (KeyPoint K)) (ms : List (DMatch K))
    (hr : ∀ m ∈ ms, Refers query train m) :
    ∃ out idx, stereoMatchFilter vertical query train ms = .ok (out, idx) ∧
      Kept (Related (Geometry vertical) query train) ms out idx := by
  apply filter_kept
  · rintro i x s hx ⟨q, t, hq, ht, hg⟩
    rw [getAt_ok hx, Outcome.bind_ok, atInt_ok hq, Outcome.bind_ok, atInt_ok ht, Outcome.bind_ok, if_pos (show _ ∧ _ from hg)]
  · intro i x s hx hP
    obtain ⟨⟨q, hq⟩, t, ht⟩ := hr x (List.mem_of_getElem? hx)
    rw [getAt_ok hx, Outcome.bind_ok, atInt_ok hq, Outcome.bind_ok, atInt_ok ht, Outcome.bind_ok, if_neg]
    exact fun hg => hP ⟨q, t, hq, ht, hg⟩

/-- C52, stereo geometry: the call throws iff a match refers to a keypoint that does not exist. -/
theorem C52_geometry_throws_iff (vertical : K) (query train : List (KeyPoint K)) (ms : List (DMatch K)) :
    (stereoMatchFilter vertical query train ms = .throws ↔ ∃ m ∈ ms, ¬ Refers query train m) ∧
    stereoMatchFilter vertical query train ms ≠ .ub := by
  by_cases h : ∃ m ∈ ms, ¬ Refers query train m
  · have : stereoMatchFilter vertical query train ms = .throws := by
      obtain ⟨m, hm, hn⟩ := h
      obtain ⟨i, hi, e⟩ := List.getElem_of_mem hm
      apply forLoop_throws
      · intro i s hi
        have hx : ms[i]? = some ms[i] := by simp [hi]
        rw [getAt_ok hx, Outcome.bind_ok]
        rcases atInt_cases query ms[i].queryIdx with ⟨q, -, hq⟩ | hq <;> rw [hq]
        · rw [Outcome.bind_ok]
          rcases atInt_cases train ms[i].trainIdx with ⟨t, -, ht⟩ | ht <;> rw [ht]
          · rw [Outcome.bind_ok]; split <;> simp
          · simp
        · simp
      · refine ⟨i, hi, fun s => ?_⟩
        have hx : ms[i]? = some m := by simp [hi, e]
        rw [getAt_ok hx, Outcome.bind_ok]
        rcases atInt_cases query m.queryIdx with ⟨q, aq, hq⟩ | hq <;> rw [hq]
        · rw [Outcome.bind_ok]
          rcases atInt_cases train m.trainIdx with ⟨t, at', ht⟩ | ht <;> rw [ht]
          · exact absurd ⟨⟨q, aq⟩, t, at'⟩ hn
          · rfl
        · rfl
    rw [this]
    exact ⟨⟨fun _ => h, fun _ => rfl⟩, by simp⟩
  · have h' : ∀ m ∈ ms, Refers query train m := by
      intro m hm
      by_contra hc
      exact h ⟨m, hm, hc⟩
    obtain ⟨out, idx, e, -⟩ := C52_geometry vertical query train ms h'
    rw [e]
    exact ⟨⟨by simp, fun hc => absurd hc h⟩, by simp⟩

/-- C52, depth: if all matches refer to keypoints, exactly those with positive disparity and a depth within the bounds are
kept. -/
theorem C52_depth [IsStrictOrderedRing K] (fx b near far : K) (query train : List (KeyPoint K)) (ms : List (DMatch K))
    (hr : ∀ m ∈ ms, Refers query train m) :
    ∃ out idx, (DistanceFilter.create fx b far near).filter query train ms = .ok (out, idx) ∧
      Kept (Related (DepthWithin fx b near far) query train) ms out idx := by
  apply filter_kept
  · rintro i x s hx ⟨q, t, hq, ht, hg⟩
    rw [getAt_ok hx, Outcome.bind_ok, atInt_ok hq, Outcome.bind_ok, atInt_ok ht, Outcome.bind_ok]
    dsimp only
    rw [if_pos]
    exact ⟨sub_pos.2 hg.1, decide_eq_true ⟨hg.2.1, hg.2.2⟩⟩
  · intro i x s hx hP
    obtain ⟨⟨q, hq⟩, t, ht⟩ := hr x (List.mem_of_getElem? hx)
    rw [getAt_ok hx, Outcome.bind_ok, atInt_ok hq, Outcome.bind_ok, atInt_ok ht, Outcome.bind_ok]
    dsimp only
    rw [if_neg]
    exact fun hg => hP ⟨q, t, hq, ht, sub_pos.1 hg.1, (of_decide_eq_true hg.2).1, (of_decide_eq_true hg.2).2⟩

/-- C52, depth: the call throws iff a match refers to a keypoint that does not exist. -/
theorem C52_depth_throws_iff [IsStrictOrderedRing K] (fx b near far : K) (query train : List (KeyPoint K))
    (ms : List (DMatch K)) :
    ((DistanceFilter.create fx b far near).filter query train ms = .throws ↔ ∃ m ∈ ms, ¬ Refers query train m) ∧
    (DistanceFilter.create fx b far near).filter query train ms ≠ .ub := by
  by_cases h : ∃ m ∈ ms, ¬ Refers query train m
  · have : (DistanceFilter.create fx b far near).filter query train ms = .throws := by
      obtain ⟨m, hm, hn⟩ := h
      obtain ⟨i, hi, e⟩ := List.getElem_of_mem hm
      apply forLoop_throws
      · intro i s hi
        have hx : ms[i]? = some ms[i] := by simp [hi]
        rw [getAt_ok hx, Outcome.bind_ok]
        rcases atInt_cases query ms[i].queryIdx with ⟨q, -, hq⟩ | hq <;> rw [hq]
        · rw [Outcome.bind_ok]
          rcases atInt_cases train ms[i].trainIdx with ⟨t, -, ht⟩ | ht <;> rw [ht]
          · rw [Outcome.bind_ok]; dsimp only; split <;> simp
          · simp
        · simp
      · refine ⟨i, hi, fun s => ?_⟩
        have hx : ms[i]? = some m := by simp [hi, e]
        rw [getAt_ok hx, Outcome.bind_ok]
        rcases atInt_cases query m.queryIdx with ⟨q, aq, hq⟩ | hq <;> rw [hq]
        · rw [Outcome.bind_ok]
          rcases atInt_cases train m.trainIdx with ⟨t, at', ht⟩ | ht <;> rw [ht]
          · exact absurd ⟨⟨q, aq⟩, t, at'⟩ hn
          · rfl
        · rfl
    rw [this]
    exact ⟨⟨fun _ => h, fun _ => rfl⟩, by simp⟩
  · have h' : ∀ m ∈ ms, Refers query train m := by
      intro m hm
      by_contra hc
      exact h ⟨m, hm, hc⟩
    obtain ⟨out, idx, e, -⟩ := C52_depth fx b near far query train ms h'
    rw [e]
    exact ⟨⟨by simp, fun hc => absurd hc h⟩, by simp⟩

omit [LinearOrder K] in
/-- C87 fails: both setters of a distance filter read a member that has no value yet, whatever the filter was created with
and in whatever order they are called. -/
theorem C87_fails_setters (fx b far near x : K) :
    (DistanceFilter.create fx b far near).setBaseline x = .ub ∧ (DistanceFilter.create fx b far near).setFx x = .ub :=
  ⟨rfl, rfl⟩

/-! Two keypoints, three matches: one with the geometry, one with the wrong side, one too far apart vertically. -/

def kpAt (x y : ℚ) : KeyPoint ℚ := ⟨x, y, 1, 0, 0, 0, -1⟩

def kpsL : List (KeyPoint ℚ) := [kpAt 10 5, kpAt 3 5]
def kpsR : List (KeyPoint ℚ) := [kpAt 6 5, kpAt 2 9]
def threeMatches : List (DMatch ℚ) := [⟨0, 0, 1⟩, ⟨1, 0, 2⟩, ⟨0, 1, 3⟩]

example : stereoMatchFilter 1 kpsL kpsR threeMatches = .ok ([⟨0, 0, 1⟩], [0]) := by decide +kernel
example : distanceMatchFilter 2 threeMatches = .ok ([⟨0, 0, 1⟩, ⟨1, 0, 2⟩], [0, 1]) := by decide +kernel
example : (DistanceFilter.create 4 2 10 (3 / 2)).filter kpsL kpsR threeMatches = .ok ([⟨0, 0, 1⟩], [0]) := by decide +kernel
example : ∀ m ∈ threeMatches, Refers kpsL kpsR m := by
  intro m hm
  simp only [threeMatches, List.mem_cons, List.not_mem_nil, or_false] at hm
  rcases hm with rfl | rfl | rfl <;> exact ⟨⟨_, by decide, rfl⟩, _, by decide, rfl⟩
example : ¬ Refers kpsL kpsR ⟨0, 2, (1 : ℚ)⟩ := by
  rintro ⟨-, t, -, h⟩
  cases h

end Stereo

end Serpent
