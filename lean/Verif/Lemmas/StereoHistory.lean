import Verif.Lemmas.StereoTracker

/-!
# Lemmas about histories of the stereo feature tracker
-/

namespace Serpent

namespace Stereo

variable {I K : Type} [Field K] [LinearOrder K]

/-- Invariant of the tracker between frames: its track contains the observations `os`. -/
structure Holds (s : Tracker I K) (os : List (Observation K)) : Prop where
  track : s.track = ofObs os
  increasing : (os.map (·.id)).Pairwise (· < ·)
  below : ∀ o ∈ os, o.id < s.nextMatchId
  frame : -1 ≤ s.frameNumber
  next : 0 ≤ s.nextMatchId
  nonneg : ∀ o ∈ os, 0 ≤ o.id
  empty : s.frameNumber = -1 → os = []

omit [Field K] [LinearOrder K] in
theorem holds_init (df : Option (DistanceFilter K)) : Holds (Tracker.init df : Tracker I K) [] :=
  ⟨rfl, List.Pairwise.nil, fun _ h => absurd h List.not_mem_nil, le_refl _, le_refl _, fun _ h => absurd h List.not_mem_nil,
    fun _ => rfl⟩

omit [Field K] [LinearOrder K] in
theorem advance_sublist (os : List (Observation K)) (fl fr : List (Nat × K × K)) :
    ((advance os fl fr).map (·.id)).Sublist (os.map (·.id)) := by
  unfold advance
  generalize fl.zip fr = z
  induction os generalizing z with
  | nil => simp
  | cons o os ih =>
    cases z with
    | nil => simp
    | cons p z =>
      rw [List.zip_cons_cons]
      by_cases hp : p.1.1 = 1 ∧ p.2.1 = 1
      · rw [List.filterMap_cons_some (by simp only [hp, and_self, if_true]; rfl)]
        simpa using (ih z)
      · rw [List.filterMap_cons_none (by simp [hp])]
        exact (ih z).trans (by simp)

theorem moved_sublist {v : Vision I K} {cfg : TrackerConfig K} {s : Tracker I K} {os : List (Observation K)} {left right : I}
    {newL newR kl kr : List (KeyPoint K)} {hs : List (Observation K)} (h : Moved v cfg s os left right newL newR hs kl kr) :
    (hs.map (·.id)).Sublist (os.map (·.id)) := by
  rcases h with ⟨-, fl, fr, -, -, -, -, rfl, -⟩ | ⟨-, rfl, -⟩
  · exact advance_sublist os fl fr
  · simp

omit [Field K] [LinearOrder K] in
theorem kept_sublist (hs : List (Observation K)) (p : Observation K → Bool) :
    ((hs.filter p).map (·.id)).Sublist (hs.map (·.id)) := (List.filter_sublist).map _

omit [Field K] [LinearOrder K] in
theorem fresh_ge (next : Int) (ps : List (Pair K)) : ∀ o ∈ fresh next ps, next ≤ o.id ∧ o.id < next + ps.length := by
  intro o ho
  have : o.id ∈ (fresh next ps).map (·.id) := List.mem_map_of_mem ho
  rw [fresh_ids] at this
  simp only [List.mem_map, List.mem_range] at this
  obtain ⟨k, hk, hk2⟩ := this
  constructor <;> omega

omit [Field K] [LinearOrder K] in
theorem fresh_increasing (next : Int) (ps : List (Pair K)) : ((fresh next ps).map (·.id)).Pairwise (· < ·) := by
  rw [fresh_ids, List.pairwise_map]
  exact List.pairwise_lt_range.imp (by intro a b h; omega)

/-- What one frame does. -/
theorem step {v : Vision I K} (hv : v.Sound) (cfg : TrackerConfig K) {s : Tracker I K} {os : List (Observation K)}
    (h : Holds s os) (left right : I) :
    ((process v cfg left right s).1 = .throws ∧ ∃ os', Holds (process v cfg left right s).2 os' ∧
      (os'.map (·.id)).Sublist (os.map (·.id)) ∧ (process v cfg left right s).2.nextMatchId = s.nextMatchId ∧
      (process v cfg left right s).2.distanceFilter = s.distanceFilter) ∨
    ∃ hs ps st s', process v cfg left right s =
        (.ok (ofObs (hs.filter (admitted cfg.vertical s.distanceFilter) ++ fresh s.nextMatchId ps), st), s') ∧
      Processed v cfg s os left right hs ps
        (ofObs (hs.filter (admitted cfg.vertical s.distanceFilter) ++ fresh s.nextMatchId ps)) st s' ∧
      ((hs.filter (admitted cfg.vertical s.distanceFilter)).map (·.id)).Sublist (os.map (·.id)) ∧
      Holds s' (hs.filter (admitted cfg.vertical s.distanceFilter) ++ fresh s.nextMatchId ps) := by
  rcases process_spec hv cfg s os h.track left right with ⟨h1, -, h2⟩ | ⟨h1, h2⟩ | ⟨h1, newL, newR, hs, kl, kr, hm, h2⟩ |
      ⟨hs, ps, t, st, s', h1, -, h2⟩
  · exact Or.inl ⟨h1, os, by rw [h2]; exact h, List.Sublist.refl _, by rw [h2], by rw [h2]⟩
  · refine Or.inl ⟨h1, os, ?_, List.Sublist.refl _, by rw [h2], by rw [h2]⟩
    have := h.frame
    rw [h2]
    exact ⟨h.track, h.increasing, h.below, by dsimp only; omega, h.next, h.nonneg, by dsimp only; omega⟩
  · have hsub := (kept_sublist hs (admitted cfg.vertical s.distanceFilter)).trans (moved_sublist hm)
    refine Or.inl ⟨h1, _, ?_, hsub, by rw [h2], by rw [h2]⟩
    rw [h2]
    have hfr := h.frame
    have hb : ∀ o ∈ hs.filter (admitted cfg.vertical s.distanceFilter), ∃ o' ∈ os, o'.id = o.id := fun o ho =>
      List.mem_map.1 (hsub.subset (List.mem_map_of_mem ho))
    refine ⟨rfl, h.increasing.sublist hsub, ?_, by dsimp only; omega, h.next, ?_, by dsimp only; omega⟩
    · intro o ho
      obtain ⟨o', ho', he⟩ := hb o ho
      rw [← he]; exact h.below o' ho'
    · intro o ho
      obtain ⟨o', ho', he⟩ := hb o ho
      rw [← he]; exact h.nonneg o' ho'
  · have hm := h2.parts
    obtain ⟨newL, newR, kl, kr, idx, costs, -, -, hm, -⟩ := hm
    have hsub := (kept_sublist hs (admitted cfg.vertical s.distanceFilter)).trans (moved_sublist hm)
    have ht := h2.track
    subst ht
    refine Or.inr ⟨hs, ps, st, s', h1, h2, hsub, ?_⟩
    have hfr := h.frame
    have hnx := h.next
    have hb : ∀ o ∈ hs.filter (admitted cfg.vertical s.distanceFilter), ∃ o' ∈ os, o'.id = o.id := fun o ho =>
      List.mem_map.1 (hsub.subset (List.mem_map_of_mem ho))
    have hge := fresh_ge s.nextMatchId ps
    rw [h2.state]
    refine ⟨rfl, ?_, ?_, by dsimp only; omega, by dsimp only; omega, ?_, by dsimp only; omega⟩
    · rw [List.map_append, List.pairwise_append]
      refine ⟨h.increasing.sublist hsub, fresh_increasing _ _, ?_⟩
      intro a ha b hb'
      obtain ⟨o, ho, rfl⟩ := List.mem_map.1 ha
      obtain ⟨o2, ho2, rfl⟩ := List.mem_map.1 hb'
      obtain ⟨o', ho', he⟩ := hb o ho
      have := h.below o' ho'
      have := (hge o2 ho2).1
      omega
    · intro o ho
      dsimp only
      rcases List.mem_append.1 ho with ho | ho
      · obtain ⟨o', ho', he⟩ := hb o ho
        have := h.below o' ho'
        omega
      · exact (hge o ho).2
    · intro o ho
      rcases List.mem_append.1 ho with ho | ho
      · obtain ⟨o', ho', he⟩ := hb o ho
        rw [← he]; exact h.nonneg o' ho'
      · have := (hge o ho).1
        omega

/-- A property of every frame of a history: of the state before the frame. -/
theorem run_at {v : Vision I K} (hv : v.Sound) (cfg : TrackerConfig K) :
    ∀ (frames : List (I × I)) (s : Tracker I K) (os : List (Observation K)), Holds s os →
    ∀ (j : Nat) (f : I × I), frames[j]? = some f → ∃ sj oj, Holds sj oj ∧ sj.distanceFilter = s.distanceFilter ∧
      (run v cfg frames s).1[j]? = some (process v cfg f.1 f.2 sj).1 ∧ sj = (run v cfg (frames.take j) s).2 := by
  intro frames
  induction frames with
  | nil => intro s os _ j f hf; simp at hf
  | cons g gs ih =>
    intro s os h j f hf
    cases j with
    | zero =>
      rw [List.getElem?_cons_zero, Option.some_inj] at hf
      subst hf
      exact ⟨s, os, h, rfl, rfl, rfl⟩
    | succ j =>
      rw [List.getElem?_cons_succ] at hf
      rcases step hv cfg h g.1 g.2 with ⟨-, os', h', -, -, hd⟩ | ⟨hs, ps, st, s', he, hp, -, h'⟩
      · obtain ⟨sj, oj, a, b, c, d⟩ := ih _ os' h' j f hf
        exact ⟨sj, oj, a, b.trans hd, c, d⟩
      · have h2 : (process v cfg g.1 g.2 s).2 = s' := by rw [he]
        obtain ⟨sj, oj, a, b, c, d⟩ := ih (process v cfg g.1 g.2 s).2 _ (by rw [h2]; exact h') j f hf
        exact ⟨sj, oj, a, b.trans (by rw [h2, hp.state]), c, d⟩

theorem run_length (v : Vision I K) (cfg : TrackerConfig K) (frames : List (I × I)) (s : Tracker I K) :
    (run v cfg frames s).1.length = frames.length := by
  induction frames generalizing s with
  | nil => rfl
  | cons f fs ih => simp [run, ih]

theorem run_succ (v : Vision I K) (cfg : TrackerConfig K) (frames : List (I × I)) (s : Tracker I K) (j : Nat) (f : I × I)
    (h : frames[j]? = some f) :
    (run v cfg (frames.take (j + 1)) s).2 = (process v cfg f.1 f.2 (run v cfg (frames.take j) s).2).2 := by
  induction frames generalizing s j with
  | nil => simp at h
  | cons g gs ih =>
    cases j with
    | zero =>
      rw [List.getElem?_cons_zero, Option.some_inj] at h
      subst h
      simp [run]
    | succ j =>
      rw [List.getElem?_cons_succ] at h
      rw [List.take_succ_cons, List.take_succ_cons]
      exact ih _ j h

/-- An output of a history comes from a frame. -/
theorem run_ok {v : Vision I K} (hv : v.Sound) (cfg : TrackerConfig K) (df : Option (DistanceFilter K)) (frames : List (I × I))
    (j : Nat) (t : Track K) (st : Stats) (h : (run v cfg frames (Tracker.init df)).1[j]? = some (.ok (t, st))) :
    ∃ f s os hs ps s', frames[j]? = some f ∧ Holds s os ∧ s.distanceFilter = df ∧
      s = (run v cfg (frames.take j) (Tracker.init df)).2 ∧ process v cfg f.1 f.2 s = (.ok (t, st), s') ∧
      t = ofObs (hs.filter (admitted cfg.vertical df) ++ fresh s.nextMatchId ps) ∧
      Processed v cfg s os f.1 f.2 hs ps t st s' ∧
      ((hs.filter (admitted cfg.vertical df)).map (·.id)).Sublist (os.map (·.id)) ∧
      Holds s' (hs.filter (admitted cfg.vertical df) ++ fresh s.nextMatchId ps) := by
  have hj : j < frames.length := by
    rw [← run_length v cfg frames (Tracker.init df)]; exact (List.getElem?_eq_some_iff.1 h).1
  have hf : frames[j]? = some frames[j] := List.getElem?_eq_getElem hj
  obtain ⟨s, os, hh, hd, he, hs⟩ := run_at hv cfg frames (Tracker.init df) [] (holds_init df) j _ hf
  rw [he, Option.some_inj] at h
  have hd' : s.distanceFilter = df := hd
  rcases step hv cfg hh frames[j].1 frames[j].2 with ⟨h1, -⟩ | ⟨hs', ps, st', s', he', hp, hsub, h'⟩
  · rw [h1] at h; exact absurd h (by simp)
  · have : (process v cfg frames[j].1 frames[j].2 s).1 = .ok (t, st) := h
    rw [he'] at this
    have e := Outcome.ok.inj this
    rw [Prod.mk.injEq] at e
    obtain ⟨rfl, rfl⟩ := e
    rw [hd'] at hp hsub h' he'
    exact ⟨frames[j], s, os, hs', ps, s', hf, hh, hd', hs, by rw [he', hd'], by rw [hd'], by rw [hd']; exact hp, hsub, h'⟩

theorem depthOk_true_iff {d : DistanceFilter K} {diff : K} :
    d.depthOk diff = true ↔ ∃ x, d.fxB = some x ∧ d.minDistance ≤ x / diff ∧ x / diff ≤ d.maxDistance := by
  unfold DistanceFilter.depthOk
  cases d.fxB with
  | none => simp
  | some x => simp

theorem admitted_iff [IsStrictOrderedRing K] {vertical : K} {df : Option (DistanceFilter K)} {o : Observation K} :
    admitted vertical df o = true ↔ Geometry vertical o.left o.right ∧ DepthOk df o.left o.right := by
  cases df with
  | none => simp [admitted, geometryB, Geometry, DepthOk]
  | some d => simp [admitted, geometryB, depthB, Geometry, DepthOk, sub_pos, depthOk_true_iff]

theorem depthOk_iff [IsStrictOrderedRing K] {df : Option (DistanceFilter K)} {p : Pair K} : within df p = true ↔ DepthOk df p.left p.right := by
  cases df with
  | none => simp [within, DepthOk]
  | some d => simp [within, depthB, DepthOk, sub_pos, depthOk_true_iff]

omit [Field K] [LinearOrder K] in
theorem ofObs_injective {os os' : List (Observation K)} (h : ofObs os = ofObs os') : os = os' := by
  have hl : os.length = os'.length := by
    have := congrArg (fun t => t.ids.length) h
    simpa [ofObs] using this
  apply List.ext_getElem hl
  intro i h1 h2
  obtain ⟨a1, a2, a3, a4⟩ := ofObs_get (os := os) (i := i) (o := os[i]) (List.getElem?_eq_getElem h1)
  obtain ⟨b1, b2, b3, b4⟩ := ofObs_get (os := os') (i := i) (o := os'[i]) (List.getElem?_eq_getElem h2)
  rw [h] at a1 a2 a3 a4
  rw [b1, Option.some_inj] at a1
  rw [b2, Option.some_inj] at a2
  rw [b3, Option.some_inj] at a3
  rw [b4, Option.some_inj] at a4
  generalize os[i] = x at *
  generalize os'[i] = y at *
  cases x
  cases y
  simp_all

omit [Field K] [LinearOrder K] in
theorem mem_advance {os : List (Observation K)} {fl fr : List (Nat × K × K)} {o' : Observation K} :
    o' ∈ advance os fl fr ↔ FoundAgain os fl fr o' := by
  unfold advance FoundAgain
  rw [List.mem_filterMap]
  constructor
  · rintro ⟨⟨o, ⟨a, pl⟩, ⟨b, pr⟩⟩, hm, he⟩
    obtain ⟨k, hk⟩ := List.mem_iff_getElem?.1 hm
    rw [List.getElem?_zip_eq_some, List.getElem?_zip_eq_some] at hk
    by_cases hp : a = 1 ∧ b = 1
    · simp only [hp, and_self, if_true, Option.some_inj] at he
      obtain ⟨rfl, rfl⟩ := hp
      exact ⟨k, o, pl, pr, hk.1, hk.2.1, hk.2.2, he.symm⟩
    · simp [hp] at he
  · rintro ⟨k, o, pl, pr, h1, h2, h3, rfl⟩
    refine ⟨(o, (1, pl), (1, pr)), ?_, by simp⟩
    apply List.mem_iff_getElem?.2
    exact ⟨k, by rw [List.getElem?_zip_eq_some, List.getElem?_zip_eq_some]; exact ⟨h1, h2, h3⟩⟩

omit [Field K] in
theorem mem_candidates {threshold : K} {newL newR : List (KeyPoint K)} {idx : List Int} {costs : List K} {p : Pair K} :
    p ∈ candidates threshold newL newR idx costs ↔ ∃ i k : Nat, newL[i]? = some p.left ∧ idx[i]? = some (k : Int) ∧
      newR[k]? = some p.right ∧ costs[i]? = some p.cost ∧ p.cost < threshold := by
  unfold candidates
  rw [List.mem_filterMap]
  constructor
  · rintro ⟨⟨l, j, c⟩, hm, he⟩
    obtain ⟨i, hi⟩ := List.mem_iff_getElem?.1 hm
    rw [List.getElem?_zip_eq_some, List.getElem?_zip_eq_some] at hi
    by_cases hp : c < threshold ∧ 0 ≤ j
    · rw [if_pos hp, Option.map_eq_some_iff] at he
      obtain ⟨r, hr, rfl⟩ := he
      exact ⟨i, j.toNat, hi.1, by rw [Int.toNat_of_nonneg hp.2]; exact hi.2.1, hr, hi.2.2, hp.1⟩
    · rw [if_neg hp] at he; cases he
  · rintro ⟨i, k, h1, h2, h3, h4, h5⟩
    refine ⟨(p.left, (k : Int), p.cost), ?_, ?_⟩
    · exact List.mem_iff_getElem?.2 ⟨i, by rw [List.getElem?_zip_eq_some, List.getElem?_zip_eq_some]; exact ⟨h1, h2, h4⟩⟩
    · rw [if_pos ⟨h5, Int.natCast_nonneg k⟩]
      simp [h3]

theorem mem_removeClose {d : K} {kps refs : List (KeyPoint K)} {kp : KeyPoint K} :
    kp ∈ removeClose d kps refs ↔ kp ∈ kps ∧ ∀ r ∈ refs, d < sqrDistance r kp := by
  simp [removeClose, approximatelyNear, sqrDistance]

omit [Field K] [LinearOrder K] in
theorem flowOf_flow {v : Vision I K} {p c : I} {kps : List (KeyPoint K)} {rs : List (Nat × K × K)}
    (h : flowOf v (some p) c kps = .ok rs) : Flow v p c kps rs := by
  unfold flowOf at h
  unfold Flow
  by_cases hk : kps = []
  · subst hk
    rw [if_neg (by simp)] at h
    rw [if_pos rfl]
    exact (Outcome.ok.inj h).symm
  · rw [if_pos (List.length_pos_iff.2 hk)] at h
    rw [if_neg hk]
    exact h

/-- An id of an output was in the previous output, or in the track at the beginning, or is new. -/
theorem run_carried {v : Vision I K} (hv : v.Sound) (cfg : TrackerConfig K) :
    ∀ (frames : List (I × I)) (s : Tracker I K) (os : List (Observation K)), Holds s os →
    ∀ (j : Nat) (t : Track K) (st : Stats) (id : Int), (run v cfg frames s).1[j]? = some (.ok (t, st)) → id ∈ t.ids →
    (∃ (i : Nat) (t' : Track K) (st' : Stats), i < j ∧ (run v cfg frames s).1[i]? = some (.ok (t', st')) ∧ id ∈ t'.ids ∧
      ∀ k : Nat, i < k → k < j → (run v cfg frames s).1[k]? = some .throws) ∨
    ((∀ k : Nat, k < j → (run v cfg frames s).1[k]? = some .throws) ∧ id ∈ os.map (·.id)) ∨
    (s.nextMatchId ≤ id ∧ ∀ (i : Nat) (t' : Track K) (st' : Stats), i < j → (run v cfg frames s).1[i]? = some (.ok (t', st')) →
      ∀ x ∈ t'.ids, x < id) := by
  intro frames
  induction frames with
  | nil => intro s os _ j t st id h; simp [run] at h
  | cons f fs ih =>
    intro s os h j t st id hj hid
    have hr : (run v cfg (f :: fs) s).1 = (process v cfg f.1 f.2 s).1 :: (run v cfg fs (process v cfg f.1 f.2 s).2).1 := rfl
    rw [hr] at hj ⊢
    cases j with
    | zero =>
      rw [List.getElem?_cons_zero, Option.some_inj] at hj
      rcases step hv cfg h f.1 f.2 with ⟨h1, -⟩ | ⟨hs, ps, st', s', he, -, hsub, -⟩
      · rw [h1] at hj; cases hj
      · rw [he] at hj
        have := congrArg Prod.fst (Outcome.ok.inj hj)
        dsimp only at this
        rw [← this] at hid
        simp only [ofObs, List.map_append, List.mem_append] at hid
        rcases hid with hid | hid
        · exact Or.inr (Or.inl ⟨fun k hk => absurd hk (Nat.not_lt_zero k), hsub.subset hid⟩)
        · obtain ⟨o, ho, rfl⟩ := List.mem_map.1 hid
          exact Or.inr (Or.inr ⟨(fresh_ge _ _ o ho).1, fun i _ _ hi => absurd hi (Nat.not_lt_zero i)⟩)
    | succ j =>
      rw [List.getElem?_cons_succ] at hj
      rcases step hv cfg h f.1 f.2 with ⟨h1, os', h', hsub, hn, -⟩ | ⟨hs, ps, st', s', he, hp, hsub, h'⟩
      · rcases ih _ os' h' j t st id hj hid with ⟨i, t', st', a, b, c, d⟩ | ⟨a, b⟩ | ⟨a, b⟩
        · refine Or.inl ⟨i + 1, t', st', by omega, by simpa using b, c, ?_⟩
          intro k hk1 hk2
          obtain ⟨k, rfl⟩ : ∃ k', k = k' + 1 := ⟨k - 1, by omega⟩
          simpa using d k (by omega) (by omega)
        · refine Or.inr (Or.inl ⟨?_, hsub.subset b⟩)
          intro k hk
          cases k with
          | zero => simp [h1]
          | succ k => simpa using a k (by omega)
        · refine Or.inr (Or.inr ⟨by rw [← hn]; exact a, ?_⟩)
          intro i t' st' hi hi2
          cases i with
          | zero => rw [List.getElem?_cons_zero, h1] at hi2; cases hi2
          | succ i => exact b i t' st' (by omega) (by simpa using hi2)
      · have e2 : (process v cfg f.1 f.2 s).2 = s' := by rw [he]
        have e1 : (process v cfg f.1 f.2 s).1 =
          .ok (ofObs (hs.filter (admitted cfg.vertical s.distanceFilter) ++ fresh s.nextMatchId ps), st') := by rw [he]
        rw [e2] at hj ⊢
        rcases ih _ _ h' j t st id hj hid with ⟨i, t', st', a, b, c, d⟩ | ⟨a, b⟩ | ⟨a, b⟩
        · refine Or.inl ⟨i + 1, t', st', by omega, by simpa using b, c, ?_⟩
          intro k hk1 hk2
          obtain ⟨k, rfl⟩ : ∃ k', k = k' + 1 := ⟨k - 1, by omega⟩
          simpa using d k (by omega) (by omega)
        · refine Or.inl ⟨0, _, st', by omega, by rw [List.getElem?_cons_zero, e1], b, ?_⟩
          intro k hk1 hk2
          obtain ⟨k, rfl⟩ : ∃ k', k = k' + 1 := ⟨k - 1, by omega⟩
          simpa using a k (by omega)
        · have hnx : s'.nextMatchId = s.nextMatchId + ps.length := by rw [hp.state]
          refine Or.inr (Or.inr ⟨by omega, ?_⟩)
          intro i t' st' hi hi2
          cases i with
          | zero =>
            rw [List.getElem?_cons_zero, e1, Option.some_inj] at hi2
            have := congrArg Prod.fst (Outcome.ok.inj hi2)
            dsimp only at this
            intro x hx
            rw [← this] at hx
            obtain ⟨o, ho, rfl⟩ := List.mem_map.1 (show x ∈ List.map (fun o : Observation K => o.id)
              (hs.filter (admitted cfg.vertical s.distanceFilter) ++ fresh s.nextMatchId ps) from hx)
            have := h'.below o ho
            omega
          | succ i => exact b i t' st' (by omega) (by simpa using hi2)

/-- The next id is the number of ids given out. -/
theorem run_next {v : Vision I K} (hv : v.Sound) (cfg : TrackerConfig K) :
    ∀ (frames : List (I × I)) (s : Tracker I K) (os : List (Observation K)), Holds s os →
      (run v cfg frames s).2.nextMatchId = s.nextMatchId + issued (run v cfg frames s).1 := by
  intro frames
  induction frames with
  | nil => intro s os _; simp [run, issued]
  | cons f fs ih =>
    intro s os h
    have hr : run v cfg (f :: fs) s = ((process v cfg f.1 f.2 s).1 :: (run v cfg fs (process v cfg f.1 f.2 s).2).1,
      (run v cfg fs (process v cfg f.1 f.2 s).2).2) := rfl
    rw [hr]
    dsimp only
    rcases step hv cfg h f.1 f.2 with ⟨h1, os', h', -, hn, -⟩ | ⟨hs, ps, st', s', he, hp, -, h'⟩
    · rw [ih _ os' h', hn, h1]
      simp [issued]
    · rw [he]
      dsimp only
      rw [ih _ _ h', hp.state]
      simp only [issued, List.map_cons, List.sum_cons, hp.new]
      push_cast
      ring

theorem run_take (v : Vision I K) (cfg : TrackerConfig K) (frames : List (I × I)) (s : Tracker I K) (j : Nat) :
    (run v cfg (frames.take j) s).1 = (run v cfg frames s).1.take j := by
  induction frames generalizing s j with
  | nil => simp [run]
  | cons f fs ih =>
    cases j with
    | zero => simp [run]
    | succ j => simp [run, ih]

/-- Two consecutive frames that are processed: the second moves the observations of the first along the flow between the
images of the two. -/
theorem run_consecutive {v : Vision I K} (hv : v.Sound) (cfg : TrackerConfig K) (df : Option (DistanceFilter K))
    (frames : List (I × I)) (j : Nat) (f f' : I × I) (os os' : List (Observation K)) (st st' : Stats)
    (hf : frames[j]? = some f) (hf' : frames[j + 1]? = some f')
    (h : (run v cfg frames (Tracker.init df)).1[j]? = some (.ok (ofObs os, st)))
    (h' : (run v cfg frames (Tracker.init df)).1[j + 1]? = some (.ok (ofObs os', st'))) :
    ∃ s ps s' newL newR fl fr idx costs, v.detect f'.1 = .ok newL ∧ v.detect f'.2 = .ok newR ∧
      Flow v f.1 f'.1 (os.map (·.left)) fl ∧ Flow v f.2 f'.2 (os.map (·.right)) fr ∧
      v.indices (removeClose cfg.newFeatureSqrDist newL ((advance os fl fr).map (·.left)))
        (removeClose cfg.newFeatureSqrDist newR ((advance os fl fr).map (·.right))) f'.1 f'.2 = .ok (idx, costs) ∧
      ps = (candidates cfg.costThreshold (removeClose cfg.newFeatureSqrDist newL ((advance os fl fr).map (·.left)))
        (removeClose cfg.newFeatureSqrDist newR ((advance os fl fr).map (·.right))) idx costs).filter (within df) ∧
      s.distanceFilter = df ∧ s.frameNumber + 1 > 0 ∧ Holds s os ∧ os' = (advance os fl fr).filter (admitted cfg.vertical df) ++ fresh s.nextMatchId ps ∧
      Processed v cfg s os f'.1 f'.2 (advance os fl fr) ps (ofObs os') st' s' := by
  obtain ⟨g, s0, os0, hs0, ps0, s1, hg, -, -, hs0e, he0, ht0, hp0, -, h10⟩ := run_ok hv cfg df frames j _ _ h
  obtain ⟨g', s, os1, hs, ps, s2, hg', hh, hd, hse, he, ht, hp, -, -⟩ := run_ok hv cfg df frames (j + 1) _ _ h'
  rw [hf, Option.some_inj] at hg
  rw [hf', Option.some_inj] at hg'
  subst hg hg'
  rw [run_succ v cfg frames _ j f hf, ← hs0e, he0] at hse
  dsimp only at hse
  have e0 := ofObs_injective ht0
  rw [← e0] at h10
  rw [hp0.state] at hse
  have eos : os1 = os := ofObs_injective (by rw [← hh.track, hse])
  subst eos
  have hsn : s.frameNumber + 1 > 0 := by
    have := (hp0.state ▸ h10).frame
    have h3 : s.frameNumber = s0.frameNumber + 1 := by rw [hse]
    have := h10.frame
    rw [hp0.state] at this
    dsimp only at this
    obtain ⟨q, oq, hq, -, -, hq2⟩ := run_at hv cfg frames (Tracker.init df) [] (holds_init df) j f hf
    rw [← hs0e] at hq2
    subst hq2
    have := hq.frame
    omega
  obtain ⟨newL, newR, kl, kr, idx, costs, d1, d2, hm, hi, hps, -⟩ := hp.parts
  rcases hm with ⟨-, fl, fr, f1, f2, -, -, rfl, rfl, rfl⟩ | ⟨hn, -⟩
  · have him : s.images = some (f.1, f.2) := by rw [hse]
    rw [him] at f1 f2
    rw [hd] at hps
    exact ⟨s, ps, s2, newL, newR, fl, fr, idx, costs, d1, d2, flowOf_flow f1, flowOf_flow f2, hi, hps, hd, hsn, hh,
      ofObs_injective ht, hp⟩
  · exact absurd hsn hn

end Stereo

end Serpent
