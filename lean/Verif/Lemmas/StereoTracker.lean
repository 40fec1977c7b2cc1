import Verif.Spec.StereoTracker
import Verif.Lemmas.Stereo
import Verif.Basic.Hoare

/-!
# Lemmas about the stereo feature tracker
-/

namespace Serpent

namespace Stereo

open EigenRos (forLoop getAt forLoop_inv forLoop_succ getAt_ok)

variable {I K : Type} [Field K] [LinearOrder K]

/-! ### Lists -/

/-- A loop that appends to the result of the elements seen so far. -/
theorem forLoop_take {α σ : Type} (xs : List α) (F : List α → σ) {body : Nat → σ → Outcome σ}
    (h : ∀ i x, xs[i]? = some x → body i (F (xs.take i)) = .ok (F (xs.take i ++ [x]))) :
    forLoop xs.length body (F []) = .ok (F xs) := by
  obtain ⟨s, hs, e⟩ := forLoop_inv (σ := σ) (fun n s => s = F (xs.take n)) (n := xs.length) (body := body) (s := F [])
    (by simp) (by
      rintro i s hi rfl
      have hx : xs[i]? = some xs[i] := by simp [hi]
      refine ⟨_, h i _ hx, ?_⟩
      rw [List.take_add_one, hx]; rfl)
  rw [hs, e, List.take_length]

omit [Field K] [LinearOrder K] in
theorem ofObs_append (os : List (Observation K)) (o : Observation K) :
    ofObs (os ++ [o]) = ⟨(ofObs os).left ++ [o.left], (ofObs os).right ++ [o.right],
      (ofObs os).pairs ++ [⟨os.length, os.length, o.distance⟩], (ofObs os).ids ++ [o.id]⟩ := by
  simp [ofObs, List.zipIdx_append]

omit [Field K] [LinearOrder K] in
@[simp] theorem ofObs_nil : ofObs ([] : List (Observation K)) = .empty := rfl

omit [Field K] [LinearOrder K] in
@[simp] theorem ofObs_lengths (os : List (Observation K)) : (ofObs os).left.length = os.length ∧
    (ofObs os).right.length = os.length ∧ (ofObs os).pairs.length = os.length ∧ (ofObs os).ids.length = os.length := by
  simp [ofObs]

omit [Field K] [LinearOrder K] in
theorem ofObs_get {os : List (Observation K)} {i : Nat} {o : Observation K} (h : os[i]? = some o) :
    (ofObs os).left[i]? = some o.left ∧ (ofObs os).right[i]? = some o.right ∧
    (ofObs os).pairs[i]? = some ⟨i, i, o.distance⟩ ∧ (ofObs os).ids[i]? = some o.id := by
  simp [ofObs, h]

theorem indexInt_nat {α : Type} {l : List α} {i : Nat} {x : α} (h : l[i]? = some x) : indexInt l (i : Int) = .ok x :=
  indexInt_ok ⟨by simp, by simpa using h⟩

theorem atInt_nat {α : Type} {l : List α} {i : Nat} {x : α} (h : l[i]? = some x) : atInt l (i : Int) = .ok x :=
  atInt_ok ⟨by simp, by simpa using h⟩

/-! ### Appending matches -/

/-- Matches without ids. -/
structure Pair (K : Type) where
  left : KeyPoint K
  right : KeyPoint K
  cost : K

/-- The track of matches without ids. -/
def ofPairs (ps : List (Pair K)) : Track K :=
  ⟨ps.map (·.left), ps.map (·.right), ps.zipIdx.map (fun p => ⟨p.2, p.2, p.1.cost⟩), []⟩

/-- The observations that are created of matches, with ids from `next` upwards. -/
def fresh (next : Int) (ps : List (Pair K)) : List (Observation K) :=
  ps.zipIdx.map fun p => ⟨next + p.2, p.1.left, p.1.right, p.1.cost⟩

omit [Field K] [LinearOrder K] in
theorem fresh_ids (next : Int) (ps : List (Pair K)) :
    (fresh next ps).map (·.id) = (List.range ps.length).map fun i : Nat => next + i := by
  unfold fresh
  rw [List.map_map]
  apply List.ext_getElem?
  intro i
  by_cases h : i < ps.length
  · simp [h]
  · simp [h]

omit [Field K] [LinearOrder K] in
theorem appendMatches_spec (next : Int) (ps : List (Pair K)) (os : List (Observation K)) :
    appendMatches { ofPairs ps with ids := (List.range ps.length).map fun i : Nat => next + i } (ofObs os) =
      .ok (ofObs (os ++ fresh next ps)) := by
  unfold appendMatches
  have hl : (ofPairs ps).pairs.length = (fresh next ps).length := by simp [ofPairs, fresh]
  have e : ofObs os = ofObs (os ++ []) := by rw [List.append_nil]
  dsimp only
  rw [hl, e]
  refine forLoop_take (fresh next ps) (fun l => ofObs (os ++ l)) ?_
  intro i o hi
  have hlt : i < ps.length := by
    have := (List.getElem?_eq_some_iff.1 hi).1
    simpa [fresh] using this
  have ho : o = ⟨next + i, ps[i].left, ps[i].right, ps[i].cost⟩ := by
    simp [fresh, hlt] at hi
    exact hi.symm
  subst ho
  have ht : (os ++ (fresh next ps).take i).length = os.length + i := by
    simp [fresh]; omega
  rw [getAt_ok (x := ⟨i, i, ps[i].cost⟩) (by simp [ofPairs, hlt]), Outcome.bind_ok,
    getAt_ok (x := next + i) (by simp [hlt]), Outcome.bind_ok,
    getAt_ok (x := ps[i].left) (by simp [ofPairs, hlt]), Outcome.bind_ok,
    getAt_ok (x := ps[i].right) (by simp [ofPairs, hlt]), Outcome.bind_ok]
  rw [← List.append_assoc, ofObs_append]
  obtain ⟨h1, h2, -, -⟩ := ofObs_lengths (os ++ (fresh next ps).take i)
  rw [h1, h2]

/-! ### Filters -/

/-- The loop of the filters on a list of matches that are given by a list `q`. -/
theorem filter_loop {α β : Type} (q : List α) (mk : α → β) (p : α → Bool)
    {body : Nat → List β × List Nat → Outcome (List β × List Nat)}
    (h : ∀ i x s, q[i]? = some x → body i s = if p x then .ok (s.1 ++ [mk x], s.2 ++ [i]) else .ok s) :
    forLoop q.length body ([], []) =
      .ok ((q.filter p).map mk, (q.zipIdx.filter (fun x => p x.1)).map (·.2)) := by
  refine forLoop_take q (fun l => ((l.filter p).map mk, (l.zipIdx.filter (fun x => p x.1)).map (·.2))) ?_
  intro i x hx
  rw [h i x _ hx]
  have hlt := (List.getElem?_eq_some_iff.1 hx).1
  have hlen : (q.take i).length = i := by simp; omega
  by_cases hp : p x = true
  · rw [if_pos hp]
    simp [List.filter_append, List.zipIdx_append, hp]
    omega
  · rw [if_neg hp]
    simp [List.filter_append, List.zipIdx_append, hp]

/-- Extracting the ids of the elements that were kept. -/
theorem extractIds_filter {α : Type} (q : List α) (g : α → Int) (p : α → Bool) :
    extractIds (q.map g) ((q.zipIdx.filter (fun x => p x.1)).map (·.2)) = .ok ((q.filter p).map g) := by
  unfold extractIds
  have e : (q.filter p).map g = (q.zipIdx.filter (fun x => p x.1)).map (fun x => g x.1) := by
    have : q = q.zipIdx.map Prod.fst := by simp
    conv_lhs => rw [this, List.filter_map]
    rw [List.map_map]
    rfl
  rw [e, List.length_map]
  refine forLoop_take (q.zipIdx.filter (fun x => p x.1)) (fun l => l.map (fun x => g x.1)) ?_
  intro k x hx
  have hmem : x ∈ q.zipIdx := List.mem_of_mem_filter (List.mem_of_getElem? hx)
  rw [List.mem_zipIdx_iff_getElem?] at hmem
  rw [getAt_ok (x := x.2) (by simp [hx]), Outcome.bind_ok, getAt_ok (x := g x.1) (by simp [hmem]), Outcome.bind_ok]
  simp

omit [Field K] [LinearOrder K] in
/-- Extracting the keypoints of matches. -/
theorem extractMatched_spec {α : Type} (left right : List (KeyPoint K)) (q : List α) (mk : α → DMatch K)
    (l r : α → KeyPoint K) (hl : ∀ x ∈ q, At left (mk x).queryIdx (l x)) (hr : ∀ x ∈ q, At right (mk x).trainIdx (r x)) :
    extractMatched left right (q.map mk) =
      .ok (q.map l, q.map r, q.zipIdx.map (fun x => ⟨x.2, x.2, (mk x.1).distance⟩)) := by
  unfold extractMatched
  rw [List.length_map]
  refine forLoop_take q
    (fun t => (t.map l, t.map r, t.zipIdx.map (fun x => (⟨x.2, x.2, (mk x.1).distance⟩ : DMatch K)))) ?_
  intro i x hx
  have hlt := (List.getElem?_eq_some_iff.1 hx).1
  have hm := List.mem_of_getElem? hx
  rw [getAt_ok (x := mk x) (by simp [hx]), Outcome.bind_ok, indexInt_ok (hl x hm), Outcome.bind_ok, indexInt_ok (hr x hm),
    Outcome.bind_ok]
  simp [List.zipIdx_append]

/-- The predicate of the geometry filter. -/
def geometryB (vertical : K) (l r : KeyPoint K) : Bool := l.x > r.x ∧ |l.y - r.y| ≤ vertical

/-- The predicate of the distance filter. -/
def depthB (d : DistanceFilter K) (l r : KeyPoint K) : Bool :=
  l.x - r.x > 0 ∧ d.depthOk (l.x - r.x) = true

theorem geometryFilter_spec {α : Type} (vertical : K) (left right : List (KeyPoint K)) (q : List α) (mk : α → DMatch K)
    (l r : α → KeyPoint K) (hl : ∀ x ∈ q, At left (mk x).queryIdx (l x)) (hr : ∀ x ∈ q, At right (mk x).trainIdx (r x)) :
    stereoMatchFilter vertical left right (q.map mk) =
      .ok ((q.filter (fun x => geometryB vertical (l x) (r x))).map mk,
        (q.zipIdx.filter (fun x => geometryB vertical (l x.1) (r x.1))).map (·.2)) := by
  unfold stereoMatchFilter
  rw [List.length_map]
  refine filter_loop q mk (fun x => geometryB vertical (l x) (r x)) ?_
  intro i x s hx
  have hm := List.mem_of_getElem? hx
  rw [getAt_ok (x := mk x) (by simp [hx]), Outcome.bind_ok, atInt_ok (hl x hm), Outcome.bind_ok, atInt_ok (hr x hm),
    Outcome.bind_ok]
  unfold geometryB
  by_cases hg : (l x).x > (r x).x ∧ |(l x).y - (r x).y| ≤ vertical
  · rw [if_pos hg, if_pos (by simpa using hg)]
  · rw [if_neg hg, if_neg (by simpa using hg)]

theorem depthFilter_spec {α : Type} (d : DistanceFilter K) (left right : List (KeyPoint K)) (q : List α) (mk : α → DMatch K)
    (l r : α → KeyPoint K) (hl : ∀ x ∈ q, At left (mk x).queryIdx (l x)) (hr : ∀ x ∈ q, At right (mk x).trainIdx (r x)) :
    d.filter left right (q.map mk) =
      .ok ((q.filter (fun x => depthB d (l x) (r x))).map mk,
        (q.zipIdx.filter (fun x => depthB d (l x.1) (r x.1))).map (·.2)) := by
  unfold DistanceFilter.filter
  rw [List.length_map]
  refine filter_loop q mk (fun x => depthB d (l x) (r x)) ?_
  intro i x s hx
  have hm := List.mem_of_getElem? hx
  rw [getAt_ok (x := mk x) (by simp [hx]), Outcome.bind_ok, atInt_ok (hl x hm), Outcome.bind_ok, atInt_ok (hr x hm),
    Outcome.bind_ok]
  unfold depthB
  dsimp only
  by_cases hg : (l x).x - (r x).x > 0 ∧ d.depthOk ((l x).x - (r x).x) = true
  · rw [if_pos hg, if_pos (by simpa using hg)]
  · rw [if_neg hg, if_neg (by simpa using hg)]

/-- The matches of a track, with their positions. -/
def mkMatch (p : Observation K × Nat) : DMatch K := ⟨p.2, p.2, p.1.distance⟩

omit [Field K] [LinearOrder K] in
theorem mem_zipIdx_at {hs : List (Observation K)} {x : Observation K × Nat} (h : x ∈ hs.zipIdx) :
    At (ofObs hs).left (mkMatch x).queryIdx x.1.left ∧ At (ofObs hs).right (mkMatch x).trainIdx x.1.right := by
  rw [List.mem_zipIdx_iff_getElem?] at h
  obtain ⟨h1, h2, -⟩ := ofObs_get h
  exact ⟨⟨by simp [mkMatch], by simpa [mkMatch] using h1⟩, ⟨by simp [mkMatch], by simpa [mkMatch] using h2⟩⟩

/-- The observations that pass both filters. -/
def admitted (vertical : K) (df : Option (DistanceFilter K)) (o : Observation K) : Bool :=
  geometryB vertical o.left o.right && (match df with | none => true | some d => depthB d o.left o.right)

theorem filter_zipIdx_map {α β : Type} (xs : List α) (p : α → Bool) (g : α → β) :
    (xs.zipIdx.filter (fun x => p x.1)).map (fun x => g x.1) = (xs.filter p).map g := by
  have : xs = xs.zipIdx.map Prod.fst := by simp
  conv_rhs => rw [this, List.filter_map]
  rw [List.map_map]
  rfl

/-- Filtering the tracked matches: the state afterwards. -/
theorem filterTracked_keep (cfg : TrackerConfig K) (hs : List (Observation K)) (s : Tracker I K) :
    ∃ mid : Tracker I K, filterTracked cfg (ofObs hs) s = (.ok (), mid) ∧
      mid.track.pairs.length = (hs.filter (admitted cfg.vertical s.distanceFilter)).length ∧
      mid.track.ids = (hs.filter (admitted cfg.vertical s.distanceFilter)).map (·.id) ∧
      keepTracked (ofObs hs) mid =
        (.ok (), { s with track := ofObs (hs.filter (admitted cfg.vertical s.distanceFilter)) }) := by
  -- the geometry filter
  have hg := geometryFilter_spec cfg.vertical (ofObs hs).left (ofObs hs).right hs.zipIdx mkMatch (fun x => x.1.left)
    (fun x => x.1.right) (fun x hx => (mem_zipIdx_at hx).1) (fun x hx => (mem_zipIdx_at hx).2)
  have hids := extractIds_filter hs.zipIdx (fun x => x.1.id) (fun x => geometryB cfg.vertical x.1.left x.1.right)
  have hids' : (ofObs hs).ids = hs.zipIdx.map (fun x => x.1.id) := by
    show hs.map (·.id) = _
    have := filter_zipIdx_map hs (fun _ => true) (·.id)
    simpa using this.symm
  rw [← hids'] at hids
  have hpairs : (ofObs hs).pairs = hs.zipIdx.map mkMatch := rfl
  rw [← hpairs] at hg
  set q := hs.zipIdx.filter (fun x => geometryB cfg.vertical x.1.left x.1.right) with hq
  have hqm : ∀ x ∈ q, x ∈ hs.zipIdx := fun x hx => List.mem_of_mem_filter hx
  have keep : ∀ (q' : List (Observation K × Nat)) (mid : Tracker I K), (∀ x ∈ q', x ∈ hs.zipIdx) →
      mid.track.pairs = q'.map mkMatch → mid.track.ids = q'.map (fun x => x.1.id) →
      keepTracked (ofObs hs) mid = (.ok (), { mid with track := ofObs (q'.map Prod.fst) }) := by
    intro q' mid hq' h1 h2
    have he := extractMatched_spec (ofObs hs).left (ofObs hs).right q' mkMatch (fun x => x.1.left) (fun x => x.1.right)
      (fun x hx => (mem_zipIdx_at (hq' x hx)).1) (fun x hx => (mem_zipIdx_at (hq' x hx)).2)
    unfold keepTracked
    rw [M.get_bind, h1, he, M.lift_ok_bind, M.modify_run]
    simp only [Prod.mk.injEq, true_and]
    congr 1
    rw [h2]
    unfold ofObs
    simp only [List.map_map, Track.mk.injEq]
    refine ⟨rfl, rfl, ?_, rfl⟩
    rw [List.zipIdx_map, List.map_map]
    rfl
  cases hd : s.distanceFilter with
  | none =>
    have hq' : q = hs.zipIdx.filter (fun x => admitted cfg.vertical none x.1) := by
      rw [hq]
      congr 1
      funext x
      simp [admitted]
    refine ⟨{ s with track := { s.track with pairs := q.map mkMatch, ids := q.map (fun x => x.1.id) } }, ?_, ?_, ?_, ?_⟩
    · unfold filterTracked
      rw [hg, M.lift_ok_bind, M.modify_bind, hids, M.lift_ok_bind, M.modify_bind, M.get_bind]
      simp only [hd]
      rfl
    · simp only [List.length_map]
      rw [hq']
      have := congrArg List.length (filter_zipIdx_map hs (admitted cfg.vertical none) id)
      simpa using this
    · simp only
      rw [hq']
      exact filter_zipIdx_map hs (admitted cfg.vertical none) (·.id)
    · rw [keep q _ hqm rfl rfl]
      have := filter_zipIdx_map hs (admitted cfg.vertical none) id
      rw [List.map_id] at this
      rw [← this, hq']
      simp only [hd]
      rfl
  | some d =>
    have hf := depthFilter_spec d (ofObs hs).left (ofObs hs).right q mkMatch (fun x => x.1.left)
      (fun x => x.1.right) (fun x hx => (mem_zipIdx_at (hqm x hx)).1) (fun x hx => (mem_zipIdx_at (hqm x hx)).2)
    have hfi := extractIds_filter q (fun x => x.1.id) (fun x => depthB d x.1.left x.1.right)
    set q2 := q.filter (fun x => depthB d x.1.left x.1.right) with hq2
    have hq2m : ∀ x ∈ q2, x ∈ hs.zipIdx := fun x hx => hqm x (List.mem_of_mem_filter hx)
    have hq2' : q2 = hs.zipIdx.filter (fun x => admitted cfg.vertical (some d) x.1) := by
      rw [hq2, hq, List.filter_filter]
      congr 1
      funext x
      simp only [admitted]
      rw [Bool.and_comm]
    refine ⟨{ s with track := { s.track with pairs := q2.map mkMatch, ids := q2.map (fun x => x.1.id) } }, ?_, ?_, ?_, ?_⟩
    · unfold filterTracked
      rw [hg, M.lift_ok_bind, M.modify_bind, hids, M.lift_ok_bind, M.modify_bind, M.get_bind]
      simp only [hd]
      rw [hf, M.lift_ok_bind, M.modify_bind]
      simp only
      rw [hfi, M.lift_ok_bind, M.modify_run]
    · simp only [List.length_map]
      rw [hq2']
      have := congrArg List.length (filter_zipIdx_map hs (admitted cfg.vertical (some d)) id)
      simpa using this
    · simp only
      rw [hq2']
      exact filter_zipIdx_map hs (admitted cfg.vertical (some d)) (·.id)
    · rw [keep q2 _ hq2m rfl rfl]
      have := filter_zipIdx_map hs (admitted cfg.vertical (some d)) id
      rw [List.map_id] at this
      rw [← this, hq2']
      simp only [hd]
      rfl

/-! ### Optical flow -/

omit [LinearOrder K] [Field K] in
/-- Flow of a list of keypoints: an empty list gives an empty result; otherwise one result per keypoint. -/
theorem flowOf_length {v : Vision I K} (hv : v.Sound) {previous : Option I} {current : I} {kps : List (KeyPoint K)}
    {rs : List (Nat × K × K)} (h : flowOf v previous current kps = .ok rs) : rs.length = kps.length := by
  unfold flowOf at h
  split at h
  · cases previous with
    | none => cases h
    | some p => simpa using hv.flowLength _ _ _ _ h
  · cases h
    simp only [List.length_nil]
    omega

omit [LinearOrder K] [Field K] in
theorem flowOf_ne_ub {v : Vision I K} (hv : v.Sound) (previous : Option I) (current : I) (kps : List (KeyPoint K)) :
    flowOf v previous current kps ≠ .ub := by
  unfold flowOf
  split
  · cases previous with
    | none => simp
    | some p => exact hv.flow _ _ _
  · simp

omit [LinearOrder K] [Field K] in
/-- Tracking of the previous keypoints. -/
theorem trackPrevious_spec {v : Vision I K} (hv : v.Sound) (s : Tracker I K) (os : List (Observation K))
    (ht : s.track = ofObs os) (left right : I) :
    trackPrevious v s left right = .throws ∨
    ∃ fl fr, flowOf v (s.images.map (·.1)) left (os.map (·.left)) = .ok fl ∧
      flowOf v (s.images.map (·.2)) right (os.map (·.right)) = .ok fr ∧ fl.length = os.length ∧ fr.length = os.length ∧
      trackPrevious v s left right = .ok (ofObs (advance os fl fr)) := by
  unfold trackPrevious
  rw [ht]
  have hL : (ofObs os).left = os.map (·.left) := rfl
  have hR : (ofObs os).right = os.map (·.right) := rfl
  rw [hL, hR]
  cases h1 : flowOf v (s.images.map (·.1)) left (os.map (·.left)) with
  | ub => exact absurd h1 (flowOf_ne_ub hv _ _ _)
  | throws => exact Or.inl rfl
  | ok fl =>
    rw [Outcome.bind_ok]
    cases h2 : flowOf v (s.images.map (·.2)) right (os.map (·.right)) with
    | ub => exact absurd h2 (flowOf_ne_ub hv _ _ _)
    | throws => exact Or.inl rfl
    | ok fr =>
      rw [Outcome.bind_ok]
      have l1 : fl.length = os.length := by simpa using flowOf_length hv h1
      have l2 : fr.length = os.length := by simpa using flowOf_length hv h2
      refine Or.inr ⟨fl, fr, rfl, rfl, l1, l2, ?_⟩
      have hn : (ofObs os).pairs.length = (os.zip (fl.zip fr)).length := by simp [ofObs, l1, l2]
      rw [hn]
      unfold advance
      refine forLoop_take (os.zip (fl.zip fr)) (fun l => ofObs (l.filterMap fun p =>
        if p.2.1.1 = 1 ∧ p.2.2.1 = 1 then
          some { p.1 with left := p.1.left.movedTo p.2.1.2, right := p.1.right.movedTo p.2.2.2 }
        else none)) ?_
      intro i x hx
      have hlt := (List.getElem?_eq_some_iff.1 hx).1
      simp only [List.length_zip] at hlt
      have hx' : x = (os[i]'(by omega), fl[i]'(by omega), fr[i]'(by omega)) := by
        rw [List.getElem?_eq_some_iff] at hx
        obtain ⟨_, e⟩ := hx
        rw [← e]
        simp
      subst hx'
      obtain ⟨g1, g2, g3, g4⟩ := ofObs_get (os := os) (i := i) (o := os[i]'(by omega)) (by simp)
      have e1 : fl[i]? = some (fl[i]'(by omega)) := by simp
      have e2 : fr[i]? = some (fr[i]'(by omega)) := by simp
      rw [getAt_ok g3, Outcome.bind_ok, indexInt_nat e1, Outcome.bind_ok, List.filterMap_append]
      by_cases s1 : (fl[i]'(by omega)).1 = 1
      · rw [if_pos s1, indexInt_nat e2, Outcome.bind_ok]
        by_cases s2 : (fr[i]'(by omega)).1 = 1
        · rw [if_pos s2, ← hL, ← hR, indexInt_nat g1, Outcome.bind_ok, indexInt_nat g2, Outcome.bind_ok, getAt_ok g4,
            Outcome.bind_ok]
          simp only [List.filterMap_cons, List.filterMap_nil, s1, s2, and_self, if_true]
          rw [ofObs_append]
          rw [(ofObs_lengths _).1, (ofObs_lengths _).2.1]
          rfl
        · rw [if_neg s2]
          simp [s2]
      · rw [if_neg s1]
        simp [s1]

/-! ### New matches -/

/-- The candidates for new matches. -/
def candidates (threshold : K) (newL newR : List (KeyPoint K)) (idx : List Int) (costs : List K) : List (Pair K) :=
  (newL.zip (idx.zip costs)).filterMap fun p =>
    if p.2.2 < threshold ∧ 0 ≤ p.2.1 then newR[p.2.1.toNat]?.map fun r => ⟨p.1, r, p.2.2⟩ else none

omit [Field K] [LinearOrder K] in
theorem ofPairs_append (ps : List (Pair K)) (o : Pair K) :
    ofPairs (ps ++ [o]) = ⟨(ofPairs ps).left ++ [o.left], (ofPairs ps).right ++ [o.right],
      (ofPairs ps).pairs ++ [⟨ps.length, ps.length, o.cost⟩], (ofPairs ps).ids⟩ := by
  simp [ofPairs, List.zipIdx_append]

omit [Field K] in
theorem createNewMatches_spec (threshold : K) (newL newR : List (KeyPoint K)) (idx : List Int) (costs : List K)
    (h1 : idx.length = newL.length) (h2 : costs.length = newL.length)
    (h3 : ∀ k ∈ idx, k = -1 ∨ ∃ n : Nat, k = n ∧ n < newR.length) :
    createNewMatches threshold newL newR idx costs = .ok (ofPairs (candidates threshold newL newR idx costs)) := by
  unfold createNewMatches candidates
  have hn : newL.length = (newL.zip (idx.zip costs)).length := by simp [h1, h2]
  rw [hn]
  refine forLoop_take (newL.zip (idx.zip costs)) (fun l => ofPairs (l.filterMap fun p =>
    if p.2.2 < threshold ∧ 0 ≤ p.2.1 then newR[p.2.1.toNat]?.map fun r => ⟨p.1, r, p.2.2⟩ else none)) ?_
  intro i x hx
  have hlt := (List.getElem?_eq_some_iff.1 hx).1
  simp only [List.length_zip] at hlt
  have hx' : x = (newL[i]'(by omega), idx[i]'(by omega), costs[i]'(by omega)) := by
    rw [List.getElem?_eq_some_iff] at hx
    obtain ⟨_, e⟩ := hx
    rw [← e]
    simp
  subst hx'
  have e1 : newL[i]? = some (newL[i]'(by omega)) := by simp
  have e2 : idx[i]? = some (idx[i]'(by omega)) := by simp
  have e3 : costs[i]? = some (costs[i]'(by omega)) := by simp
  rw [getAt_ok e3, Outcome.bind_ok, List.filterMap_append]
  by_cases s1 : costs[i]'(by omega) < threshold
  · rw [if_pos s1, getAt_ok e2, Outcome.bind_ok]
    by_cases s2 : idx[i]'(by omega) ≥ 0
    · rw [if_pos s2, getAt_ok e1, Outcome.bind_ok]
      obtain ⟨n, hk, hr⟩ := (h3 (idx[i]'(by omega)) (List.getElem_mem _)).resolve_left (by omega)
      have e4 : newR[n]? = some newR[n] := by simp
      rw [hk, indexInt_nat e4, Outcome.bind_ok]
      have hf : List.filterMap (fun p : KeyPoint K × Int × K =>
          if p.2.2 < threshold ∧ 0 ≤ p.2.1 then newR[p.2.1.toNat]?.map fun r => (⟨p.1, r, p.2.2⟩ : Pair K) else none)
          [(newL[i]'(by omega), (n : Int), costs[i]'(by omega))] =
          [⟨newL[i]'(by omega), newR[n], costs[i]'(by omega)⟩] := by
        rw [List.filterMap_cons_some (b := ⟨newL[i]'(by omega), newR[n], costs[i]'(by omega)⟩), List.filterMap_nil]
        dsimp only
        rw [if_pos ⟨s1, by omega⟩, Int.toNat_natCast, e4]
        rfl
      rw [hf, ofPairs_append]
      simp [ofPairs]
    · rw [if_neg s2]
      rw [List.filterMap_cons_none, List.filterMap_nil, List.append_nil]
      dsimp only
      rw [if_neg (fun h => s2 h.2)]
  · rw [if_neg s1]
    simp [s1]

/-- The new matches within the depth limits. -/
def within (df : Option (DistanceFilter K)) (p : Pair K) : Bool :=
  match df with
  | none => true
  | some d => depthB d p.left p.right

theorem newMatches_spec {v : Vision I K} (hv : v.Sound) (cfg : TrackerConfig K) (df : Option (DistanceFilter K))
    (newL newR : List (KeyPoint K)) (left right : I) :
    newMatches v cfg df newL newR left right = .throws ∨
    ∃ idx costs, v.indices newL newR left right = .ok (idx, costs) ∧
      newMatches v cfg df newL newR left right =
        .ok (ofPairs ((candidates cfg.costThreshold newL newR idx costs).filter (within df))) := by
  unfold newMatches
  cases h : v.indices newL newR left right with
  | ub => exact absurd h (hv.indices _ _ _ _)
  | throws => exact Or.inl rfl
  | ok r =>
    obtain ⟨idx, costs⟩ := r
    obtain ⟨h1, h2⟩ := hv.indicesLength _ _ _ _ _ _ h
    refine Or.inr ⟨idx, costs, rfl, ?_⟩
    rw [Outcome.bind_ok, createNewMatches_spec _ _ _ _ _ h1 h2 (hv.indicesRange _ _ _ _ _ _ h), Outcome.bind_ok]
    generalize candidates cfg.costThreshold newL newR idx costs = ps
    cases df with
    | none =>
      have : ps.filter (within none) = ps := List.filter_eq_self.2 (fun _ _ => rfl)
      rw [this]
    | some d =>
      dsimp only
      have hat : ∀ x ∈ ps.zipIdx, At (ofPairs ps).left ((x.2 : Nat) : Int) x.1.left ∧
          At (ofPairs ps).right ((x.2 : Nat) : Int) x.1.right := by
        intro x hx
        rw [List.mem_zipIdx_iff_getElem?] at hx
        refine ⟨⟨by simp, ?_⟩, ⟨by simp, ?_⟩⟩ <;> simp [ofPairs, hx]
      have hf := depthFilter_spec d (ofPairs ps).left (ofPairs ps).right ps.zipIdx
        (fun x => (⟨x.2, x.2, x.1.cost⟩ : DMatch K)) (fun x => x.1.left) (fun x => x.1.right)
        (fun x hx => (hat x hx).1) (fun x hx => (hat x hx).2)
      have hp : (ofPairs ps).pairs = ps.zipIdx.map (fun x => (⟨x.2, x.2, x.1.cost⟩ : DMatch K)) := rfl
      rw [hp, hf, Outcome.bind_ok]
      have he := extractMatched_spec (ofPairs ps).left (ofPairs ps).right
        (ps.zipIdx.filter (fun x => depthB d x.1.left x.1.right))
        (fun x => (⟨x.2, x.2, x.1.cost⟩ : DMatch K)) (fun x => x.1.left) (fun x => x.1.right)
        (fun x hx => (hat x (List.mem_of_mem_filter hx)).1) (fun x hx => (hat x (List.mem_of_mem_filter hx)).2)
      rw [he, Outcome.bind_ok]
      have key := filter_zipIdx_map ps (within (some d)) id
      rw [List.map_id] at key
      have key' : ps.filter (within (some d)) =
          (ps.zipIdx.filter (fun x => depthB d x.1.left x.1.right)).map Prod.fst := key.symm
      rw [key']
      unfold ofPairs
      simp only [List.map_map, Outcome.ok.injEq, Track.mk.injEq]
      refine ⟨rfl, rfl, ?_, trivial⟩
      rw [List.zipIdx_map, List.map_map]
      rfl

/-! ### One frame -/

/-- The observations of the previous frame moved along the flow, and the detected keypoints that are not close to them. -/
def Moved (v : Vision I K) (cfg : TrackerConfig K) (s : Tracker I K) (os : List (Observation K)) (left right : I)
    (newL newR : List (KeyPoint K)) (hs : List (Observation K)) (kl kr : List (KeyPoint K)) : Prop :=
  (s.frameNumber + 1 > 0 ∧ ∃ fl fr, flowOf v (s.images.map (·.1)) left (os.map (·.left)) = .ok fl ∧
      flowOf v (s.images.map (·.2)) right (os.map (·.right)) = .ok fr ∧ fl.length = os.length ∧ fr.length = os.length ∧
      hs = advance os fl fr ∧ kl = removeClose cfg.newFeatureSqrDist newL (hs.map (·.left)) ∧
      kr = removeClose cfg.newFeatureSqrDist newR (hs.map (·.right))) ∨
  (¬ s.frameNumber + 1 > 0 ∧ hs = [] ∧ kl = newL ∧ kr = newR)

theorem hypotheses_spec {v : Vision I K} (hv : v.Sound) (cfg : TrackerConfig K) (s : Tracker I K)
    (os : List (Observation K)) (ht : s.track = ofObs os) (left right : I) (newL newR : List (KeyPoint K)) :
    hypotheses v cfg { s with frameNumber := s.frameNumber + 1 } left right newL newR = .throws ∨
    ∃ hs kl kr, Moved v cfg s os left right newL newR hs kl kr ∧
      hypotheses v cfg { s with frameNumber := s.frameNumber + 1 } left right newL newR = .ok (ofObs hs, kl, kr) := by
  unfold hypotheses Moved
  by_cases hf : s.frameNumber + 1 > 0
  · rw [if_pos hf]
    rcases trackPrevious_spec hv { s with frameNumber := s.frameNumber + 1 } os ht left right with h | ⟨fl, fr, h1, h2, h3, h4, h5⟩
    · rw [h]; exact Or.inl rfl
    · rw [h5]
      exact Or.inr ⟨_, _, _, Or.inl ⟨hf, fl, fr, h1, h2, h3, h4, rfl, rfl, rfl⟩, rfl⟩
  · rw [if_neg hf]
    exact Or.inr ⟨[], newL, newR, Or.inr ⟨hf, rfl, rfl, rfl⟩, rfl⟩

/-- What a frame that is processed gives. -/
structure Processed (v : Vision I K) (cfg : TrackerConfig K) (s : Tracker I K) (os : List (Observation K)) (left right : I)
    (hs : List (Observation K)) (ps : List (Pair K)) (t : Track K) (st : Stats) (s' : Tracker I K) : Prop where
  parts : ∃ newL newR kl kr idx costs, v.detect left = .ok newL ∧ v.detect right = .ok newR ∧
    Moved v cfg s os left right newL newR hs kl kr ∧ v.indices kl kr left right = .ok (idx, costs) ∧
    ps = (candidates cfg.costThreshold kl kr idx costs).filter (within s.distanceFilter) ∧
    st.extractedKpCount = (newL.length, newR.length) ∧
    st.filteredExtractedKpCount = (if s.frameNumber + 1 > 0 then some (kl.length, kr.length) else none)
  track : t = ofObs (hs.filter (admitted cfg.vertical s.distanceFilter) ++ fresh s.nextMatchId ps)
  state : s' = ⟨s.frameNumber + 1, s.nextMatchId + ps.length, some (left, right), t, s.distanceFilter⟩
  frameNumber : st.frameNumber = s.frameNumber + 1
  maxMatchId : st.maxMatchId = s.nextMatchId + ps.length - 1
  longest : st.longestTrackedMatchId =
    (((hs.filter (admitted cfg.vertical s.distanceFilter)).map (·.id)).head?).getD (-1)
  trackedKp : st.trackedKpCount = (if s.frameNumber + 1 > 0 then some (hs.length, hs.length) else none)
  tracked : st.trackedMatchCount = (hs.filter (admitted cfg.vertical s.distanceFilter)).length
  new : st.newMatchCount = ps.length
  total : st.totalMatchCount = t.pairs.length
  ids : st.matchIds = t.ids

/-- One frame: it throws, and the track is as before or only its tracked part is left, or it is processed. -/
theorem process_spec {v : Vision I K} (hv : v.Sound) (cfg : TrackerConfig K) (s : Tracker I K) (os : List (Observation K))
    (ht : s.track = ofObs os) (left right : I) :
    ((process v cfg left right s).1 = .throws ∧ v.size left ≠ v.size right ∧ (process v cfg left right s).2 = s) ∨
    ((process v cfg left right s).1 = .throws ∧
      (process v cfg left right s).2 = { s with frameNumber := s.frameNumber + 1 }) ∨
    ((process v cfg left right s).1 = .throws ∧ ∃ newL newR hs kl kr, Moved v cfg s os left right newL newR hs kl kr ∧
      (process v cfg left right s).2 = { s with frameNumber := s.frameNumber + 1, track := ofObs (hs.filter (admitted cfg.vertical s.distanceFilter)) }) ∨
    ∃ hs ps t st s', process v cfg left right s = (.ok (t, st), s') ∧ v.size left = v.size right ∧
      Processed v cfg s os left right hs ps t st s' := by
  unfold process
  by_cases hsz : v.size left ≠ v.size right
  · rw [if_pos hsz]; exact Or.inl ⟨rfl, hsz, rfl⟩
  rw [if_neg hsz]
  refine Or.inr ?_
  rw [M.modify_bind]
  cases hdl : v.detect left with
  | ub => exact absurd hdl (hv.detect _)
  | throws => rw [M.lift_throws_bind]; exact Or.inl ⟨rfl, rfl⟩
  | ok newL =>
    rw [M.lift_ok_bind]
    cases hdr : v.detect right with
    | ub => exact absurd hdr (hv.detect _)
    | throws => rw [M.lift_throws_bind]; exact Or.inl ⟨rfl, rfl⟩
    | ok newR =>
      rw [M.lift_ok_bind, M.get_bind]
      rcases hypotheses_spec hv cfg s os ht left right newL newR with h | ⟨hs, kl, kr, hm, h⟩
      · rw [h, M.lift_throws_bind]; exact Or.inl ⟨rfl, rfl⟩
      rw [h, M.lift_ok_bind]
      obtain ⟨mid, hfilt, hlen, hids, hkeep⟩ := filterTracked_keep cfg hs { s with frameNumber := s.frameNumber + 1 }
      dsimp only at hfilt hlen hids hkeep ⊢
      rw [M.bind_run, hfilt]
      dsimp only
      rw [M.get_bind, M.bind_run, hkeep]
      dsimp only
      rcases newMatches_spec hv cfg s.distanceFilter kl kr left right with h2 | ⟨idx, costs, hi, h2⟩
      · rw [h2, M.lift_throws_bind]
        exact Or.inr (Or.inl ⟨rfl, newL, newR, hs, kl, kr, hm, rfl⟩)
      rw [h2, M.lift_ok_bind, M.modify_bind, M.get_bind]
      dsimp only
      generalize hps : (candidates cfg.costThreshold kl kr idx costs).filter (within s.distanceFilter) = ps
      have hpl : (ofPairs ps).pairs.length = ps.length := by simp [ofPairs]
      have hpi : (ofPairs ps).ids = [] := rfl
      rw [hpl, hpi, List.nil_append, appendMatches_spec, M.lift_ok_bind, M.modify_bind, M.modify_bind]
      refine Or.inr (Or.inr ⟨hs, ps, _, _, _, rfl, not_not.1 hsz, ?_⟩)
      refine ⟨⟨newL, newR, kl, kr, idx, costs, hdl, hdr, hm, hi, hps.symm, rfl, rfl⟩, rfl, rfl, rfl, rfl, ?_, ?_, ?_, rfl, rfl,
        rfl⟩
      · dsimp only; rw [hids]
      · dsimp only; rw [(ofObs_lengths hs).1, (ofObs_lengths hs).2.1]
      · dsimp only; rw [hlen]

end Stereo

end Serpent
