import Verif.Spec.LidarPipeline
import Verif.Lemmas.RosNetwork

/-!
# The lidar pipeline (C63)
-/

namespace Serpent

namespace Lidar

open Ros

/-- The topics that the filter publishes on. -/
def filterTopics : List String :=
  ["filter/voxel_filtered_pointcloud", "filter/body_filtered_pointcloud", "filter/range_filtered_pointcloud",
    "filter/sor_filtered_pointcloud", "filter/filtered_pointcloud"]

theorem filter_links (c : FilterConfig) (input : String) (hany : enabledFilters c ≠ [])
    (hs : c.sample = true → 0 ≤ c.sampleSize ∧ 0 ≤ c.seed) :
    ∃ links, pointcloudFilter c input = .ok links ∧ links.map Link.stage = enabledFilters c ∧ Path links input finalTopic ∧
      (links.map Link.output).Nodup ∧ ∀ l ∈ links, l.output ∈ filterTopics := by
  obtain ⟨v, b, r, o, s, n, m⟩ := c
  have h1 : ¬ (s = true ∧ n < 0) := fun h => by have := (hs h.1).1; simp only at this; omega
  have h2 : ¬ (s = true ∧ m < 0) := fun h => by have := (hs h.1).2; simp only at this; omega
  unfold pointcloudFilter
  dsimp only
  rw [if_neg h1, if_neg h2]
  clear h1 h2 hs
  refine ⟨_, rfl, ?_⟩
  cases v <;> cases b <;> cases r <;> cases o <;> cases s
  case false.false.false.false.false => exact absurd rfl hany
  all_goals
    clear hany
    refine ⟨rfl, ?_, by simp [addStage, finalTopic], ?_⟩
    · repeat first | exact Path.nil _ | apply Path.cons
    · simp [addStage, filterTopics, finalTopic]

theorem through_eq {C : Type} (f : Stage → Nat → C → Outcome C) (l : List Stage) (i : Nat) (c : C) :
    through f l i c = passThrough f l i c := by
  induction l generalizing c with
  | nil => rfl
  | cons s l ih =>
    show (f s i c >>= fun c => through f l i c) = f s i c >>= passThrough f l i
    congr 1
    funext c
    exact ih c

theorem alive_arrivals {C : Type} {links : List (Link Stage)} {f : Stage → Nat → C → Outcome C} {input : String}
    (hw : ∀ l ∈ links, l.output ≠ input) (events : List (Event C)) (s : Net C)
    (ha : (events.foldl (Net.step links f input) s).alive = true) :
    (events.foldl (Net.step links f input) s).on input = s.on input ++ arrivals events := by
  induction events generalizing s with
  | nil => simp [arrivals]
  | cons e es ih =>
    have hs : s.alive = true := by
      by_contra hs
      have : ∀ (es : List (Event C)), (es.foldl (Net.step links f input) s).alive = s.alive := by
        intro es
        induction es with
        | nil => rfl
        | cons e es ih2 =>
          have : Net.step links f input s e = s := by
            cases e <;> exact if_neg hs
          rw [List.foldl_cons, this, ih2]
      exact hs ((this (e :: es)).symm.trans ha)
    rw [List.foldl_cons] at ha ⊢
    rw [ih _ ha]
    cases e with
    | arrive m =>
      have : Net.step links f input s (.arrive m) = s.publish links input m := if_pos hs
      rw [this, on_publish, if_pos rfl]
      show s.on input ++ [m] ++ arrivals es = s.on input ++ (m :: arrivals es)
      simp
    | serve k =>
      have e1 : Net.step links f input s (.serve k) = s.serve links f k := if_pos hs
      have e2 : arrivals (Event.serve k :: es) = arrivals es := rfl
      rw [e1, e2]
      congr 1
      unfold Net.serve
      cases hk : links[k]? with
      | none => rfl
      | some l =>
        cases hq : s.queue k with
        | nil => rfl
        | cons m rest =>
          dsimp only
          cases f l.stage (s.calls k) m with
          | throws => rfl
          | ub => rfl
          | ok r =>
            show (Net.publish links l.output r _).on input = _
            rw [on_publish, if_neg (hw l (List.mem_of_getElem? hk))]
            rfl

theorem not_alive {C : Type} {links : List (Link Stage)} {f : Stage → Nat → C → Outcome C} {input : String} {s : Net C}
    (h : ¬ s.alive = true) (events : List (Event C)) : events.foldl (Net.step links f input) s = s := by
  induction events with
  | nil => rfl
  | cons e es ih =>
    have : Net.step links f input s e = s := by cases e <;> exact if_neg h
    rw [List.foldl_cons, this, ih]

/-- Enough calls of one callback empty its queue and change no queue other than that of the output. -/
theorem drain_one {C : Type} {links : List (Link Stage)} {f : Stage → Nat → C → Outcome C} {input : String} {k : Nat}
    {l : Link Stage} (hk : links[k]? = some l) (hne : l.input ≠ l.output) (n : Nat) (s : Net C)
    (hn : (s.queue k).length = n) :
    ∃ ks : List Nat, ∀ s', s' = (ks.map Event.serve).foldl (Net.step links f input) s → s'.alive = true →
      s'.queue k = [] ∧ ∀ j l', links[j]? = some l' → l'.input ≠ l.output → s.queue j = [] → s'.queue j = [] := by
  induction n generalizing s with
  | zero =>
    refine ⟨[], ?_⟩
    rintro s' rfl _
    exact ⟨List.length_eq_zero_iff.1 hn, fun _ _ _ _ h => h⟩
  | succ n ih =>
    by_cases ha : s.alive = true
    · cases hq : s.queue k with
      | nil => rw [hq] at hn; simp at hn
      | cons m rest =>
        rw [hq] at hn
        have hstep : Net.step links f input s (.serve k) = s.serve links f k := if_pos ha
        have hs : s.serve links f k = (match f l.stage (s.calls k) m with
            | .ok r => Net.publish links l.output r { s with
                queue := fun j => if j = k then rest else s.queue j
                calls := fun j => if j = k then s.calls j + 1 else s.calls j }
            | _ => { s with
                queue := fun j => if j = k then rest else s.queue j
                calls := fun j => if j = k then s.calls j + 1 else s.calls j
                alive := false }) := by
          unfold Net.serve
          rw [hk, hq]
          dsimp only
          cases f l.stage (s.calls k) m <;> rfl
        cases e : f l.stage (s.calls k) m with
        | throws =>
          refine ⟨[k], ?_⟩
          rintro s' rfl h
          rw [e] at hs
          rw [List.map_cons, List.foldl_cons, hstep, hs] at h
          cases h
        | ub =>
          refine ⟨[k], ?_⟩
          rintro s' rfl h
          rw [e] at hs
          rw [List.map_cons, List.foldl_cons, hstep, hs] at h
          cases h
        | ok r =>
          rw [e] at hs
          dsimp only at hs
          have hqueue : ∀ j l', links[j]? = some l' → l'.input ≠ l.output →
              (s.serve links f k).queue j = if j = k then rest else s.queue j := by
            intro j l' hj h
            rw [hs]
            unfold Net.publish
            dsimp only
            rw [hj]
            exact if_neg h
          obtain ⟨ks, h⟩ := ih (s.serve links f k) (by
            rw [hqueue k l hk hne, if_pos rfl]
            simpa using hn)
          refine ⟨k :: ks, ?_⟩
          rintro s' rfl hal
          rw [List.map_cons, List.foldl_cons, hstep] at hal ⊢
          obtain ⟨h1, h2⟩ := h _ rfl hal
          refine ⟨h1, fun j l' hj hne' h0 => h2 j l' hj hne' ?_⟩
          rw [hqueue j l' hj hne']
          by_cases hjk : j = k
          · rw [hjk, hq] at h0; cases h0
          · rw [if_neg hjk, h0]
    · refine ⟨[], ?_⟩
      rintro s' rfl h
      exact absurd h ha

theorem path_input {links : List (Link Stage)} {a b : String} (hp : Path links a b) {j : Nat} {l : Link Stage}
    (hj : links[j]? = some l) : (j = 0 ∧ l.input = a) ∨ ∃ i l', j = i + 1 ∧ links[i]? = some l' ∧ l.input = l'.output := by
  induction hp generalizing j l with
  | nil => simp at hj
  | @cons x xs b hp ih =>
    cases j with
    | zero =>
      left
      rw [List.getElem?_cons_zero] at hj
      exact ⟨rfl, by rw [Option.some.inj hj]⟩
    | succ j =>
      right
      rw [List.getElem?_cons_succ] at hj
      rcases ih hj with ⟨rfl, e⟩ | ⟨i, l', rfl, hi, e⟩
      · exact ⟨0, x, rfl, rfl, e⟩
      · exact ⟨i + 1, l', rfl, by rw [List.getElem?_cons_succ]; exact hi, e⟩

theorem drains {C : Type} {links : List (Link Stage)} {input output : String} (hp : Path links input output)
    (hw : Wired links input) (f : Stage → Nat → C → Outcome C) (events : List (Event C)) :
    ∃ ks : List Nat, ∀ s, s = Net.run links f input (events ++ ks.map Event.serve) → s.alive = true → s.Idle links := by
  have order : ∀ {j k : Nat} {l l' : Link Stage}, j ≤ k → links[j]? = some l → links[k]? = some l' → l.input ≠ l'.output := by
    intro j k l l' hjk hj hk e
    rcases path_input hp hj with ⟨_, h⟩ | ⟨i, x, rfl, hi, h⟩
    · exact hw.input l' (List.mem_of_getElem? hk) (e.symm.trans h)
    · have h1 : (links.map Link.output)[i]? = some l'.output := by rw [List.getElem?_map, hi, ← e, h]; rfl
      have h2 : (links.map Link.output)[k]? = some l'.output := by rw [List.getElem?_map, hk]; rfl
      have hi' := (List.getElem?_eq_some_iff.1 h1).1
      have := (List.getElem?_inj hi' hw.outputs).1 (h1.trans h2.symm)
      omega
  suffices ∀ n ≤ links.length, ∃ ks : List Nat, ∀ s, s = Net.run links f input (events ++ ks.map Event.serve) →
      s.alive = true → ∀ j < n, s.queue j = [] from this _ le_rfl
  intro n
  induction n with
  | zero => exact fun _ => ⟨[], fun _ _ _ j hj => absurd hj (Nat.not_lt_zero j)⟩
  | succ n ih =>
    intro hn
    obtain ⟨ks, h⟩ := ih (Nat.le_of_succ_le hn)
    have hk : links[n]? = some links[n] := List.getElem?_eq_getElem hn
    obtain ⟨ks', h'⟩ := drain_one (f := f) (input := input) hk (order le_rfl hk hk) _
      (Net.run links f input (events ++ ks.map Event.serve)) rfl
    refine ⟨ks ++ ks', ?_⟩
    intro s hs hal j hj
    have hs' : s = (ks'.map Event.serve).foldl (Net.step links f input)
        (Net.run links f input (events ++ ks.map Event.serve)) := by
      rw [hs, List.map_append, ← List.append_assoc]
      unfold Net.run
      rw [List.foldl_append]
    have hal' : (Net.run links f input (events ++ ks.map Event.serve)).alive = true := by
      by_contra hx
      rw [hs', not_alive hx] at hal
      exact hx hal
    obtain ⟨h1, h2⟩ := h' s hs' hal
    rcases Nat.lt_succ_iff_lt_or_eq.1 hj with hlt | rfl
    · have hj' : links[j]? = some links[j] := List.getElem?_eq_getElem (hlt.trans hn)
      exact h2 j _ hj' (order hlt.le hj' hk) (h _ rfl hal' j hlt)
    · exact h1

theorem alive_of_ok {C : Type} {links : List (Link Stage)} {f : Stage → Nat → C → Outcome C}
    (hf : ∀ l ∈ links, ∀ n c, ∃ r, f l.stage n c = .ok r) (input : String) (events : List (Event C)) :
    (Net.run links f input events).alive = true := by
  unfold Net.run
  suffices ∀ s : Net C, s.alive = true → (events.foldl (Net.step links f input) s).alive = true from this _ rfl
  induction events with
  | nil => exact fun s h => h
  | cons e es ih =>
    intro s h
    apply ih
    cases e with
    | arrive m =>
      have : Net.step links f input s (.arrive m) = s.publish links input m := if_pos h
      rw [this]
      exact h
    | serve k =>
      have : Net.step links f input s (.serve k) = s.serve links f k := if_pos h
      rw [this]
      unfold Net.serve
      cases hk : links[k]? with
      | none => exact h
      | some l =>
        cases hq : s.queue k with
        | nil => exact h
        | cons m rest =>
          obtain ⟨r, hr⟩ := hf l (List.mem_of_getElem? hk) (s.calls k) m
          dsimp only
          rw [hr]
          exact h

/-- The messages on the output topic are the clouds of the input topic after the stages: the `i`-th of the one is the `i`-th of
the other, none is lost or repeated; when nothing waits and the process runs, all have arrived; from every state, enough callbacks
lead to a state where nothing waits; and the process only ends by a cloud without range or by an exception of PCL. -/
def Delivers {C : Type} (links : List (Link Stage)) (stages : List Stage) (input output : String) (hasRange : C → Bool)
    (pcl : Stage → Nat → C → Outcome C) : Prop :=
  ∀ events, ∀ s, s = Net.run links (callback hasRange pcl) input events →
    (s.on output).length ≤ (s.on input).length ∧
    (∀ i a b, (s.on input)[i]? = some a → (s.on output)[i]? = some b →
      passThrough (callback hasRange pcl) stages i a = .ok b) ∧
    (s.alive = true → s.on input = arrivals events) ∧
    (s.alive = true → s.Idle links → (s.on output).length = (s.on input).length) ∧
    (∃ ks : List Nat, ∀ s', s' = Net.run links (callback hasRange pcl) input (events ++ ks.map Event.serve) →
      s'.alive = true → s'.Idle links) ∧
    ((∀ c, hasRange c = true) → (∀ st ∈ stages, ∀ n c, ∃ r, pcl st n c = .ok r) → s.alive = true)

theorem delivers {C : Type} {links : List (Link Stage)} {input output : String} (hp : Path links input output)
    (hw : Wired links input) (hasRange : C → Bool) (pcl : Stage → Nat → C → Outcome C) :
    Delivers links (links.map Link.stage) input output hasRange pcl := by
  rintro events s rfl
  have hi := Inv.run (callback := callback hasRange pcl) hw events
  have hm := Made.path hi.made hp
  refine ⟨hm.1, fun i a b ha hb => ?_, fun ha => ?_, fun ha hidle => ?_, drains hp hw _ events, fun hr hpcl => ?_⟩
  · rw [← through_eq]
    exact hm.2 i a b ha hb
  · exact alive_arrivals hw.input events Net.init ha
  · exact Made.idle hi ha hidle links (fun _ h => h) hp
  · refine alive_of_ok (fun l hl n c => ?_) input events
    obtain ⟨r, e⟩ := hpcl l.stage (List.mem_map.2 ⟨l, hl, rfl⟩) n c
    refine ⟨r, ?_⟩
    unfold callback
    simp only [hr]
    first | exact e | (split <;> simp_all)

/-- C63 (all but the empty combination). For every combination with an enabled filter, every input topic that is not one of the
topics of the filter, and every order in which clouds arrive and callbacks run: the clouds on the output topic are the input
clouds after the enabled filters in the fixed order, each once and in order. Missing: no filter enabled. -/
theorem C63_filter_partial {C : Type} (c : FilterConfig) (input : String) (hany : enabledFilters c ≠ [])
    (hs : c.sample = true → 0 ≤ c.sampleSize ∧ 0 ≤ c.seed) (hin : input ∉ filterTopics) (hasRange : C → Bool)
    (pcl : Stage → Nat → C → Outcome C) :
    ∃ links, pointcloudFilter c input = .ok links ∧
      Delivers links (enabledFilters c) input finalTopic hasRange pcl := by
  obtain ⟨links, e, hst, hp, hn, ht⟩ := filter_links c input hany hs
  refine ⟨links, e, ?_⟩
  rw [← hst]
  exact delivers hp ⟨hn, fun l hl he => hin (he ▸ ht l hl)⟩ _ _

/-- C63 fails when no filter is enabled: the constructor succeeds, but nothing is ever published on the output topic. -/
theorem C63_fails_none {C : Type} {c : FilterConfig} (h : enabledFilters c = []) {input : String} (hin : input ≠ finalTopic)
    (f : Stage → Nat → C → Outcome C) (events : List (Event C)) :
    pointcloudFilter c input = .ok [] ∧ (Net.run [] f input events).on finalTopic = [] := by
  constructor
  · obtain ⟨v, b, r, o, s, n, m⟩ := c
    cases v <;> cases b <;> cases r <;> cases o <;> cases s
    case false.false.false.false.false => rfl
    all_goals
      exfalso
      revert h
      simp [enabledFilters]
  · unfold Net.run
    suffices ∀ s : Net C, s.on finalTopic = [] → (events.foldl (Net.step [] f input) s).on finalTopic = [] from this _ rfl
    induction events with
    | nil => exact fun s h => h
    | cons e es ih =>
      intro s h
      apply ih
      cases e with
      | arrive m =>
        show Net.on (if s.alive then _ else s) _ = _
        split
        · rw [on_publish, if_neg hin, h]
        · exact h
      | serve k =>
        show Net.on (if s.alive then _ else s) _ = _
        split
        · exact h
        · exact h

/-- C63. A negative sample size or seed is refused, if the random sample filter is enabled. -/
theorem C63_throws {c : FilterConfig} (h : c.sample = true) (hn : c.sampleSize < 0 ∨ c.seed < 0) (input : String) :
    pointcloudFilter c input = .throws := by
  unfold pointcloudFilter
  dsimp only
  by_cases h1 : c.sample = true ∧ c.sampleSize < 0
  · rw [if_pos h1]
  · rw [if_neg h1, if_pos ⟨h, hn.resolve_left fun x => h1 ⟨h, x⟩⟩]

/-- C63 for the whole node, with and without filters. Whatever filters are enabled, each cloud of the front end arrives once, in
order, on the topic that the registration and the mapping subscribe to, after the enabled filters, the addition of unit vectors if
the options need them, and the estimation of normals. -/
theorem C63_node {C : Type} (c : FilterConfig) (hs : c.sample = true → 0 ≤ c.sampleSize ∧ 0 ≤ c.seed)
    (cov : CovMethod) (point : PointMethod) (hasRange : C → Bool) (pcl : Stage → Nat → C → Outcome C) :
    ∃ links, lidarNode c cov.name point.name = .ok links ∧
      Delivers links (enabledFilters c ++ (if requiresUnitVectors cov point then [.unitVectors] else []) ++ [.normals])
        "frontend/deskewed_pointcloud" "normal_estimation/pointcloud" hasRange pcl := by
  have hr : requiresUnitVectorsNamed cov.name point.name = .ok (requiresUnitVectors cov point) := by
    cases cov <;> cases point <;> decide
  have key : ∀ (u : Bool), ∃ links, lidarNode c cov.name point.name = .ok links ∧ (requiresUnitVectors cov point = u →
      links.map Link.stage = enabledFilters c ++ (if u then [.unitVectors] else []) ++ [.normals] ∧
      Path links "frontend/deskewed_pointcloud" "normal_estimation/pointcloud" ∧
      Wired links "frontend/deskewed_pointcloud") := by
    intro u
    unfold lidarNode
    rw [hr, Outcome.bind_ok]
    obtain ⟨v, b, r, o, s, n, m⟩ := c
    have h1 : ¬ (s = true ∧ n < 0) := fun h => by have := (hs h.1).1; simp only at this; omega
    have h2 : ¬ (s = true ∧ m < 0) := fun h => by have := (hs h.1).2; simp only at this; omega
    clear hs
    have hf : ∀ input, pointcloudFilter ⟨v, b, r, o, s, n, m⟩ input =
        pointcloudFilter ⟨v, b, r, o, s, 0, 0⟩ input := by
      intro input
      unfold pointcloudFilter
      dsimp only
      have z : ¬ (s = true ∧ (0 : Int) < 0) := fun h => by simp at h
      rw [if_neg h1, if_neg h2, if_neg z, if_neg z]
    dsimp only
    rw [hf]
    generalize requiresUnitVectors cov point = w
    cases v <;> cases b <;> cases r <;> cases o <;> cases s <;> cases w
    all_goals
      refine ⟨_, rfl, ?_⟩
      rintro rfl
      refine ⟨rfl, ?_, by decide, by decide⟩
      repeat first | exact Path.nil _ | apply Path.cons
  obtain ⟨links, e, h⟩ := key (requiresUnitVectors cov point)
  obtain ⟨hst, hp, hw⟩ := h rfl
  refine ⟨links, e, ?_⟩
  rw [← hst]
  exact delivers hp hw _ _

/-- The subscriptions, for the examples. -/
def linksOf (o : Outcome (List (Link Stage))) : List (Link Stage) :=
  match o with
  | .ok l => l
  | _ => []

/-- The property is not empty: four filters, two clouds, callbacks in an order with overtaking between stages. -/
example : (Net.run (C := Nat) (linksOf (pointcloudFilter ⟨true, true, false, true, true, 10, 0⟩ "input"))
    (callback (fun _ => true) fun st n c => .ok (match st with
      | .voxel => c * 2
      | .body => c + 1
      | .outliers => c * 3
      | _ => c + n)) "input"
    [.arrive 5, .serve 0, .arrive 7, .serve 1, .serve 0, .serve 2, .serve 1, .serve 3, .serve 2, .serve 3]).on finalTopic =
    [33, 46] := by decide +kernel

/-- A cloud without range ends the process at the range filter. -/
example : (Net.run (C := Nat) (linksOf (pointcloudFilter ⟨false, false, true, false, false, 10, 0⟩ "input"))
    (callback (fun c => decide (c ≠ 5)) fun _ _ c => .ok c) "input" [.arrive 5, .serve 0, .arrive 7, .serve 0]).alive = false := by
  decide +kernel

/-- The node with no filter: the cloud goes through the estimation of normals only. -/
example : (linksOf (lidarNode ⟨false, false, false, false, false, 0, 0⟩ "CONSTANT" "RANGE")).map Link.stage =
    [.normals] := by decide +kernel

end Lidar

end Serpent
