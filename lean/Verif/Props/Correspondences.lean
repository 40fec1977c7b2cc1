import Verif.Model.RegistrationCovariance
import Verif.Spec.Correspondences
import Verif.Lemmas.Arrays
import Mathlib.Algebra.Order.Ring.Int
import Mathlib.Data.List.GetD
import Mathlib.Tactic.Linarith

/-!
# Correspondences of a registration (C102)
-/

namespace Serpent

namespace Icp

open Lidar EigenRos

/-- What the loop over the first `m` points of `cloud` has found. -/
structure Found {P D : Type} [LE D] (dsq : P → P → D) (maxSq : D) (move : P → P) (cloud other : List P) (m : Nat)
    (l : List (Nat × Nat)) : Prop where
  near : ∀ c ∈ l, c.1 < m ∧ ∃ p q, cloud[c.1]? = some p ∧ other[c.2]? = some q ∧ dsq (move p) q ≤ maxSq ∧
    ∀ q' ∈ other, dsq (move p) q ≤ dsq (move p) q'
  all : ∀ i < m, ∀ p q, cloud[i]? = some p → q ∈ other → dsq (move p) q ≤ maxSq → ∃ c ∈ l, c.1 = i
  order : l.Pairwise fun c c' => c.1 < c'.1

theorem Found.step {P D : Type} [Preorder D] [DecidableLE D] {dsq : P → P → D} {maxSq : D} {move : P → P} {cloud other : List P}
    {search : P → Option (Nat × D)} (hs : FindsNearest dsq other search) {m : Nat} {l : List (Nat × Nat)} {p : P}
    (hp : cloud[m]? = some p) (h : Found dsq maxSq move cloud other m l) :
    Found dsq maxSq move cloud other (m + 1) (match nearestWithin search maxSq (move p) with
      | some (j, _) => l ++ [(m, j)]
      | none => l) := by
  cases hsearch : search (move p) with
  | none =>
    have hn : nearestWithin search maxSq (move p) = none := by unfold nearestWithin; rw [hsearch]
    rw [hn]
    have he := hs.2 _ hsearch
    refine ⟨fun c hc => ⟨by have := (h.near c hc).1; omega, (h.near c hc).2⟩, ?_, h.order⟩
    intro i _ p q _ hq
    rw [he] at hq
    cases hq
  | some jd =>
    obtain ⟨j, d⟩ := jd
    obtain ⟨q, hq, hd, hmin⟩ := hs.1 _ _ _ hsearch
    by_cases hle : d ≤ maxSq
    · have hn : nearestWithin search maxSq (move p) = some (j, d) := by
        unfold nearestWithin; rw [hsearch]; exact if_pos hle
      rw [hn]
      refine ⟨?_, ?_, ?_⟩
      · intro c hc
        rcases List.mem_append.1 hc with hc | hc
        · exact ⟨by have := (h.near c hc).1; omega, (h.near c hc).2⟩
        · rw [List.mem_singleton.1 hc]
          refine ⟨Nat.lt_succ_self m, p, q, hp, hq, ?_, ?_⟩
          · rwa [← hd]
          · rwa [← hd]
      · intro i hi p' q' hp' hq' hle'
        rcases Nat.lt_or_eq_of_le (Nat.lt_succ_iff.1 hi) with hi | hi
        · obtain ⟨c, hc, e⟩ := h.all i hi p' q' hp' hq' hle'
          exact ⟨c, List.mem_append_left _ hc, e⟩
        · exact ⟨(m, j), by simp, hi.symm⟩
      · rw [List.pairwise_append]
        refine ⟨h.order, List.pairwise_singleton _ _, ?_⟩
        intro c hc c' hc'
        rw [List.mem_singleton.1 hc']
        exact (h.near c hc).1
    · have hn : nearestWithin search maxSq (move p) = none := by
        unfold nearestWithin; rw [hsearch]; exact if_neg hle
      rw [hn]
      refine ⟨fun c hc => ⟨by have := (h.near c hc).1; omega, (h.near c hc).2⟩, ?_, h.order⟩
      intro i hi p' q' hp' hq' hle'
      rcases Nat.lt_or_eq_of_le (Nat.lt_succ_iff.1 hi) with hi | hi
      · exact h.all i hi p' q' hp' hq' hle'
      · subst hi
        rw [hp] at hp'
        cases hp'
        exact absurd (le_trans (hmin q' hq') hle') hle

theorem Found.paired {P D : Type} [LE D] {dsq : P → P → D} {maxSq : D} {move : P → P} {cloud other : List P} {l : List (Nat × Nat)}
    (h : Found dsq maxSq move cloud other cloud.length l) :
    Paired dsq maxSq move cloud other (fun k => (l.getD k default).1) (fun k => (l.getD k default).2) l.length := by
  constructor
  · intro k hk
    rw [List.getD_eq_getElem _ _ hk]
    exact (h.near _ (List.getElem_mem hk)).2
  · intro m p q hp hq hle
    obtain ⟨hm, -⟩ := List.getElem?_eq_some_iff.1 hp
    obtain ⟨c, hc, e⟩ := h.all m hm p q hp hq hle
    obtain ⟨k, hk, hkc⟩ := List.getElem_of_mem hc
    refine ⟨k, hk, ?_⟩
    rw [List.getD_eq_getElem _ _ hk, hkc, e]
  · intro k k' hkk hk'
    rw [List.getD_eq_getElem _ _ hk', List.getD_eq_getElem _ _ (hkk.trans hk')]
    exact List.pairwise_iff_getElem.1 h.order _ _ _ hk' hkk

/-- C102. If all points of the source are used, the correspondences are pairs of a source point and of the nearest target point to
where it is moved by the transformation: exactly for the points that have a target point within the greatest distance, once each, in
the order of the source. The search is arbitrary, as long as it finds the nearest point. -/
theorem C102_direct {P D : Type} [Mul D] [Preorder D] [DecidableLE D] (dsq : P → P → D) (S : Search P D) (max : D)
    (transform inverse : P → P) (source target : List P) (hS : FindsNearest dsq target S.target) :
    ∃ l, correspondences S max transform inverse source (List.range source.length) target false = .ok l ∧
      Paired dsq (max * max) transform source target (fun k => (l.getD k default).1) (fun k => (l.getD k default).2) l.length := by
  have h := forLoop_inv (σ := List (Nat × Nat)) (Found dsq (max * max) transform source target) (n := source.length)
    (body := fun i (cs : List (Nat × Nat)) =>
      sourcePoint source (List.range source.length) i >>= fun p =>
      .ok (match nearestWithin S.target (max * max) (transform p) with
        | some (j, _) => cs ++ [(i, j)]
        | none => cs)) (s := [])
    ⟨fun c hc => (by cases hc), fun i hi => (by omega), List.Pairwise.nil⟩ (by
      intro i l hi hl
      have hg : getAt (List.range source.length) i = .ok i := by unfold getAt; rw [List.getElem?_range hi]
      have hp : source[i]? = some source[i] := List.getElem?_eq_getElem hi
      have hp' : getAt source i = .ok source[i] := by unfold getAt; rw [hp]
      refine ⟨_, ?_, Found.step hS hp hl⟩
      unfold sourcePoint
      rw [hg, Outcome.bind_ok, hp', Outcome.bind_ok])
  obtain ⟨l, hl, hf⟩ := h
  refine ⟨l, ?_, hf.paired⟩
  unfold correspondences directCorrespondences
  rw [if_neg (by decide), List.length_range]
  exact hl

/-- C102. The reciprocal correspondences are pairs of a source point and of a target point, such that the source point is the
nearest to where the target point is moved by the inverse transformation: exactly for the target points that have a source point
within the greatest distance, once each, in the order of the target; the search has to be one in the source. -/
theorem C102_reciprocal {P D : Type} [Mul D] [Preorder D] [DecidableLE D] (dsq : P → P → D) (S : Search P D) (max : D)
    (transform inverse : P → P) (source target : List P) (indices : List Nat) (hS : FindsNearest dsq source S.source) :
    (S.restricted = true → ∃ l, correspondences S max transform inverse source indices target true = .ok l ∧
      Paired dsq (max * max) inverse target source (fun k => (l.getD k default).2) (fun k => (l.getD k default).1) l.length) ∧
    (S.restricted = false → correspondences S max transform inverse source indices target true = .throws) := by
  constructor
  · intro hr
    have h := forLoop_inv (σ := List (Nat × Nat)) (fun m l => Found dsq (max * max) inverse target source m (l.map Prod.swap))
      (n := target.length) (body := fun i (cs : List (Nat × Nat)) =>
        getAt target i >>= fun p =>
        .ok (match nearestWithin S.source (max * max) (inverse p) with
          | some (j, _) => cs ++ [(j, i)]
          | none => cs)) (s := [])
      ⟨fun c hc => (by cases hc), fun i hi => (by omega), List.Pairwise.nil⟩ (by
        intro i l hi hl
        have hp : target[i]? = some target[i] := List.getElem?_eq_getElem hi
        have hp' : getAt target i = .ok target[i] := by unfold getAt; rw [hp]
        refine ⟨_, by rw [hp', Outcome.bind_ok], ?_⟩
        have hstep := Found.step hS hp hl
        cases hn : nearestWithin S.source (max * max) (inverse target[i]) with
        | none => rw [hn] at hstep; exact hstep
        | some jd => rw [hn] at hstep; simpa using hstep)
    obtain ⟨l, hl, hf⟩ := h
    refine ⟨l, ?_, ?_⟩
    · unfold correspondences
      rw [if_pos rfl, if_neg (by rw [hr]; decide)]
      exact hl
    · have := hf.paired
      rw [List.length_map] at this
      convert this using 2 with k k
      · rw [show (default : Nat × Nat) = Prod.swap default from rfl, List.getD_map]; rfl
      · rw [show (default : Nat × Nat) = Prod.swap default from rfl, List.getD_map]; rfl
  · intro hr
    unfold correspondences
    rw [if_pos rfl, if_pos hr]

/-- C102. No index of a correspondence is outside of its cloud: every covariance function is given the two points of each
correspondence, in order, and reports the number of correspondences. -/
theorem C102_points {P : Type} {D : Type} [Mul D] [Preorder D] [DecidableLE D] (dsq : P → P → D) (S : Search P D) (max : D)
    (transform inverse : P → P) (source target : List P) (hS : FindsNearest dsq target S.target) {K : Type} (pt : P → Pt K) :
    ∃ l, correspondences S max transform inverse source (List.range source.length) target false = .ok l ∧
      ∃ ps, ps.length = l.length ∧
        (∀ (k i j : Nat), l[k]? = some (i, j) →
          ∃ p q, source[i]? = some p ∧ target[j]? = some q ∧ ps[k]? = some (pt p, pt q)) ∧
        ∀ {R : Type} (f : List (Pt K × Pt K) → R), onClouds f (source.map pt) (target.map pt) l = .ok (f ps, l.length) := by
  obtain ⟨l, hl, hp⟩ := C102_direct dsq S max transform inverse source target hS
  refine ⟨l, hl, ?_⟩
  have hin : ∀ c ∈ l, (∃ p, source[c.1]? = some p) ∧ ∃ q, target[c.2]? = some q := by
    intro c hc
    obtain ⟨k, hk, rfl⟩ := List.getElem_of_mem hc
    obtain ⟨p, q, h1, h2, -⟩ := hp.near k hk
    rw [List.getD_eq_getElem _ _ hk] at h1 h2
    exact ⟨⟨p, h1⟩, ⟨q, h2⟩⟩
  clear hl hp
  have hg : ∃ ps, gather (source.map pt) (target.map pt) l = .ok ps ∧ ps.length = l.length ∧
      ∀ (k i j : Nat), l[k]? = some (i, j) → ∃ p q, source[i]? = some p ∧ target[j]? = some q ∧ ps[k]? = some (pt p, pt q) := by
    induction l with
    | nil => exact ⟨[], rfl, rfl, fun k i j h => by simp at h⟩
    | cons c cs ih =>
      obtain ⟨ps, h1, h2, h3⟩ := ih fun c hc => hin c (List.mem_cons_of_mem _ hc)
      obtain ⟨⟨p, hp⟩, ⟨q, hq⟩⟩ := hin c (List.mem_cons_self ..)
      refine ⟨(pt p, pt q) :: ps, ?_, by simp [h2], ?_⟩
      · unfold gather checkedAt
        rw [List.getElem?_map, hp, List.getElem?_map, hq, h1]
        rfl
      · intro k i j h
        cases k with
        | zero =>
          rw [List.getElem?_cons_zero] at h
          obtain rfl := Option.some.inj h
          exact ⟨p, q, hp, hq, rfl⟩
        | succ k => exact h3 k i j (by rwa [List.getElem?_cons_succ] at h)
  obtain ⟨ps, h1, h2, h3⟩ := hg
  refine ⟨ps, h2, h3, fun f => ?_⟩
  unfold onClouds
  rw [h1]
  rfl

/-- A search on a line for the tests: the first of the nearest points. -/
def searchLine (cloud : List Int) (p : Int) : Option (Nat × Int) :=
  (cloud.zipIdx.map fun c => (c.2, (p - c.1) * (p - c.1))).foldl (fun best c =>
    match best with
    | some b => if b.2 ≤ c.2 then some b else some c
    | none => some c) none

/-- C102 fails if only some points of the source are used (`setIndices`): the index of a correspondence is the position in the list
of indices, although the point is that of the index. Here the source point 10 is moved nowhere and has the target point 10, but the
correspondence is that of the source point 0. -/
theorem C102_fails_indices : ∃ (S : Search Int Int) (source target : List Int) (indices : List Nat),
    FindsNearest (fun a b => (a - b) * (a - b)) target S.target ∧
    correspondences S 1 id id source indices target false = .ok [(0, 0)] ∧
    indices = [1] ∧ source[0]? = some 0 ∧ target[0]? = some 10 := by
  refine ⟨⟨searchLine [10], searchLine [0, 10], true⟩, [0, 10], [10], [1], ⟨?_, ?_⟩, by decide +kernel, rfl, rfl, rfl⟩
  · intro p j d h
    simp only [searchLine, List.zipIdx_cons, List.zipIdx_nil, List.map_cons, List.map_nil, List.foldl_cons, List.foldl_nil,
      Option.some.injEq, Prod.mk.injEq] at h
    obtain ⟨rfl, rfl⟩ := h
    refine ⟨10, rfl, rfl, ?_⟩
    intro q' hq'
    rw [List.mem_singleton.1 hq']
  · intro p h
    simp [searchLine] at h

/-- Non-vacuity: the pairs of three source points, moved by 1, and two target points; the last source point has no pair. -/
example : correspondences ⟨searchLine [3, 11], searchLine [2, 9, 40], true⟩ 2 (· + 1) (· - 1) [2, 9, 40] [0, 1, 2] [3, 11] false =
    .ok [(0, 0), (1, 1)] := by decide +kernel

example : correspondences ⟨searchLine [3, 11], searchLine [2, 9, 40], true⟩ 2 (· + 1) (· - 1) [2, 9, 40] [0, 1, 2] [3, 11] true =
    .ok [(0, 0), (1, 1)] := by decide +kernel

end Icp

end Serpent
