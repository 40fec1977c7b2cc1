import Verif.Props.StereoDrawing
import Verif.Props.StereoFinder

/-!
# The stereo node that publishes the images of its tracker (C152)
-/

namespace Serpent

namespace Stereo

variable {I : Type}

theorem onTracker_run {α : Type} (m : M (Tracker I ℚ) α) (tr : Tracker I ℚ) (al : Bool) :
    onTracker m ⟨tr, al⟩ = ((m tr).1, ⟨(m tr).2, al⟩) := rfl

/-- One callback of a node that holds the previous images: drawing changes nothing else. -/
theorem callback_drawn {c : Canvas I ℚ} (hc : c.Sound) {v : Vision I ℚ} (hv : v.Sound) (cfg : TrackerConfig ℚ)
    (fcfg : FinderConfig ℚ) (tr : Tracker I ℚ) (os : List (Observation ℚ)) (h : Holds tr os)
    (hi : tr.frameNumber + 1 > 0 → tr.images.isSome) (f : StereoInput I) :
    otherMessages (stereoCallbackDrawn c v cfg fcfg f.left f.right f.leftInfo f.rightInfo ⟨tr, true⟩).1 =
      (stereoCallback v cfg fcfg f.left f.right f.leftInfo f.rightInfo ⟨tr, true⟩).1 ∧
    (stereoCallbackDrawn c v cfg fcfg f.left f.right f.leftInfo f.rightInfo ⟨tr, true⟩).2 =
      (stereoCallback v cfg fcfg f.left f.right f.leftInfo f.rightInfo ⟨tr, true⟩).2 := by
  unfold stereoCallbackDrawn stereoCallback
  obtain ⟨hub, df, hs⟩ := setup_spec fcfg f.leftInfo f.rightInfo tr
  rw [M.bind_run, M.bind_run, onTracker_run, hs]
  cases h1 : (setupDistanceFilter fcfg f.leftInfo f.rightInfo tr).1 with
  | ub => exact absurd h1 hub
  | throws => exact ⟨rfl, rfl⟩
  | ok u =>
    dsimp only
    rw [M.get_bind, M.get_bind, M.bind_run, M.bind_run, onTracker_run, onTracker_run]
    have ec : c.reading true = c := by funext d; cases d <;> rfl
    have ev : v.reading true = v := rfl
    dsimp only
    rw [ec, ev]
    have hi' : ({ tr with distanceFilter := df } : Tracker I ℚ).frameNumber + 1 > 0 →
      ({ tr with distanceFilter := df } : Tracker I ℚ).images.isSome := hi
    rcases processDrawn_spec hc hv cfg { tr with distanceFilter := df } os h.track hi' f.left f.right with
      ⟨s', h2, h3⟩ | ⟨_, _, t, st, s', im, h2, h3, -, -⟩
    · rw [h2, h3]; exact ⟨rfl, rfl⟩
    · rw [h2, h3]
      dsimp only
      rw [M.modify_bind, M.modify_bind]
      cases hm : messages fcfg t st f.leftInfo f.rightInfo with
      | ok p => rw [M.lift_ok_bind, M.lift_ok_bind]; exact ⟨rfl, rfl⟩
      | throws => rw [M.lift_throws_bind, M.lift_throws_bind]; exact ⟨rfl, rfl⟩
      | ub => exact ⟨rfl, rfl⟩

/-- A callback that throws leaves the images of the tracker, one that publishes replaces them. -/
theorem callback_images {v : Vision I ℚ} (hv : v.Sound) (cfg : TrackerConfig ℚ) (fcfg : FinderConfig ℚ) (tr : Tracker I ℚ)
    (os : List (Observation ℚ)) (h : Holds tr os) (f : StereoInput I) (hi : tr.images.isSome ∨
      (stereoCallback v cfg fcfg f.left f.right f.leftInfo f.rightInfo ⟨tr, true⟩).1 ≠ .throws) :
    (stereoCallback v cfg fcfg f.left f.right f.leftInfo f.rightInfo ⟨tr, true⟩).2.tracker.images.isSome := by
  revert hi
  unfold stereoCallback
  obtain ⟨hub, df, hs⟩ := setup_spec fcfg f.leftInfo f.rightInfo tr
  have hh : Holds { tr with distanceFilter := df } os :=
    ⟨h.track, h.increasing, h.below, h.frame, h.next, h.nonneg, h.empty⟩
  rw [M.bind_run, onTracker_run, hs]
  cases h1 : (setupDistanceFilter fcfg f.leftInfo f.rightInfo tr).1 with
  | ub => exact absurd h1 hub
  | throws => rintro (hi | hn); exacts [hi, absurd rfl hn]
  | ok u =>
    dsimp only
    rw [M.get_bind, M.bind_run, onTracker_run]
    dsimp only
    have ev : v.reading true = v := rfl
    rw [ev]
    rcases process_images hv cfg hh f.left f.right with ⟨h2, h3, -, -⟩ | ⟨⟨r, h2⟩, h3⟩
    · rw [h2]
      rintro (hi | hn)
      · show ((process v cfg f.left f.right { tr with distanceFilter := df }).2.images).isSome
        rw [h3]; exact hi
      · exact absurd rfl hn
    · rw [h2]
      dsimp only
      rw [M.modify_bind]
      intro _
      cases hm : messages fcfg r.1 r.2 f.leftInfo f.rightInfo with
      | ok p =>
        rw [M.lift_ok_bind]
        show ((process v cfg f.left f.right { tr with distanceFilter := df }).2.images).isSome
        rw [h3]; rfl
      | throws =>
        rw [M.lift_throws_bind]
        show ((process v cfg f.left f.right { tr with distanceFilter := df }).2.images).isSome
        rw [h3]; rfl
      | ub =>
        show ((process v cfg f.left f.right { tr with distanceFilter := df }).2.images).isSome
        rw [h3]; rfl

theorem runFinder_cons (v : Vision I ℚ) (cfg : TrackerConfig ℚ) (fcfg : FinderConfig ℚ) (f : StereoInput I)
    (fs : List (StereoInput I)) (s : Finder I) : runFinder v cfg fcfg (f :: fs) s =
      ((stereoCallback v cfg fcfg f.left f.right f.leftInfo f.rightInfo s).1 ::
        (runFinder v cfg fcfg fs (stereoCallback v cfg fcfg f.left f.right f.leftInfo f.rightInfo s).2).1,
      (runFinder v cfg fcfg fs (stereoCallback v cfg fcfg f.left f.right f.leftInfo f.rightInfo s).2).2) := rfl

theorem node_drawn {c : Canvas I ℚ} (hc : c.Sound) {v : Vision I ℚ} (hv : v.Sound) (cfg : TrackerConfig ℚ)
    (fcfg : FinderConfig ℚ) (hst : fcfg.publishStats = false ∧ fcfg.printStats = false) (frames : List (StereoInput I))
    (hb : fcfg.publishPoints = true → ∀ f ∈ frames, GoodBaseline f) (s : Finder I) (os : List (Observation ℚ))
    (h : Holds s.tracker os) (ha : s.alive = true)
    (hr : s.tracker.images.isSome ∨ (s.tracker.frameNumber = -1 ∧ NodeStartsWell v cfg fcfg frames s)) :
    (runFinderDrawn c v cfg fcfg frames s).1.map otherMessages = (runFinder v cfg fcfg frames s).1 ∧
    (runFinderDrawn c v cfg fcfg frames s).2 = (runFinder v cfg fcfg frames s).2 := by
  induction frames generalizing s os with
  | nil => exact ⟨rfl, rfl⟩
  | cons f fs ih =>
    obtain ⟨os', h', ha', -⟩ := callback_step hv cfg fcfg h ha f hst (fun hp => hb hp f (by simp))
    obtain ⟨tr, al⟩ := s
    dsimp only at ha h hr
    subst ha
    have hi : tr.frameNumber + 1 > 0 → tr.images.isSome := by
      rcases hr with hi | ⟨hf, -⟩
      · exact fun _ => hi
      · intro hg; omega
    obtain ⟨e1, e2⟩ := callback_drawn hc hv cfg fcfg tr os h hi f
    have hr' : (stereoCallback v cfg fcfg f.left f.right f.leftInfo f.rightInfo ⟨tr, true⟩).2.tracker.images.isSome ∨
        ((stereoCallback v cfg fcfg f.left f.right f.leftInfo f.rightInfo ⟨tr, true⟩).2.tracker.frameNumber = -1 ∧
          NodeStartsWell v cfg fcfg fs (stereoCallback v cfg fcfg f.left f.right f.leftInfo f.rightInfo ⟨tr, true⟩).2) := by
      by_cases ht : (stereoCallback v cfg fcfg f.left f.right f.leftInfo f.rightInfo ⟨tr, true⟩).1 = .throws
      · rcases hr with hi | ⟨-, hw⟩
        · exact Or.inl (callback_images hv cfg fcfg tr os h f (Or.inl hi))
        · refine Or.inr ⟨?_, ?_⟩
          · rcases hw 0 (by rw [runFinder_cons, ht]; rfl) with ⟨i, hi, -⟩ | hn
            · omega
            · exact hn
          · intro j hj
            rcases hw (j + 1) (by rw [runFinder_cons]; simpa using hj) with ⟨i, hi, p, hp⟩ | hn
            · cases i with
              | zero => rw [runFinder_cons, ht] at hp; simp at hp
              | succ i => exact Or.inl ⟨i, by omega, p, by rw [runFinder_cons] at hp; simpa using hp⟩
            · exact Or.inr hn
      · exact Or.inl (callback_images hv cfg fcfg tr os h f (Or.inr ht))
    obtain ⟨i1, i2⟩ := ih (fun hp g hg => hb hp g (by simp [hg])) _ os' h' ha' hr'
    rw [runFinder_cons]
    unfold runFinderDrawn
    dsimp only
    rw [List.map_cons, e1, e2, i1, i2]
    exact ⟨rfl, rfl⟩

/-- C152. The node (with its other debugging messages as in C94_alive_partial) publishes the same features and points, and
throws the same exceptions, whether or not it also publishes the images, if it publishes something before a callback throws that
counts a frame. -/
theorem C152_node_partial (c : Canvas I ℚ) (hc : c.Sound) (v : Vision I ℚ) (hv : v.Sound) (cfg : TrackerConfig ℚ)
    (fcfg : FinderConfig ℚ) (df : Option (DistanceFilter ℚ)) (frames : List (StereoInput I))
    (hst : fcfg.publishStats = false ∧ fcfg.printStats = false) (hb : fcfg.publishPoints = true → ∀ f ∈ frames, GoodBaseline f)
    (hw : NodeStartsWell v cfg fcfg frames (Finder.init df)) :
    (runFinderDrawn c v cfg fcfg frames (Finder.init df)).1.map otherMessages =
      (runFinder v cfg fcfg frames (Finder.init df)).1 ∧
    (runFinderDrawn c v cfg fcfg frames (Finder.init df)).2 = (runFinder v cfg fcfg frames (Finder.init df)).2 :=
  node_drawn hc hv cfg fcfg hst frames hb (Finder.init df) [] (holds_init df) rfl (Or.inr ⟨rfl, hw⟩)

-- Matching throws in the second frame, but the first one was published. The third callback publishes two features, and draws
-- one that is tracked and one that is new.
example : NodeStartsWell (moving true) movingConfig ⟨false, 1000, 0, false, true, false⟩ (inputsOf true [0, 1, 2]) (Finder.init none) ∧
    (runFinderDrawn Canvas.checked (moving true) movingConfig ⟨false, 1000, 0, false, true, false⟩ (inputsOf true [0, 1, 2])
      (Finder.init none)).1.map (fun o => o >>= fun p => .ok (p.1.features.length, p.2.tracked.shown.length,
        p.2.new.shown.length)) = [.ok (1, 0, 1), .throws, .ok (2, 1, 1)] := by
  refine ⟨?_, by decide +kernel⟩
  have h0 : ∃ p, (runFinder (moving true) movingConfig ⟨false, 1000, 0, false, true, false⟩ (inputsOf true [0, 1, 2])
      (Finder.init none)).1[0]? = some (.ok p) := by
    have hk : ((runFinder (moving true) movingConfig ⟨false, 1000, 0, false, true, false⟩ (inputsOf true [0, 1, 2])
      (Finder.init none)).1[0]?).map (fun o => o >>= fun _ => .ok ()) = some (.ok ()) := by decide +kernel
    generalize (runFinder (moving true) movingConfig ⟨false, 1000, 0, false, true, false⟩ (inputsOf true [0, 1, 2])
      (Finder.init none)).1[0]? = x at hk
    match x, hk with
    | some (.ok p), _ => exact ⟨p, rfl⟩
  obtain ⟨p, hp⟩ := h0
  intro j hj
  cases j with
  | zero => rw [hp] at hj; cases Option.some.inj hj
  | succ j => exact Or.inl ⟨0, Nat.succ_pos j, p, hp⟩

end Stereo

end Serpent
