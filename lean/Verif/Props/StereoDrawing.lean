import Verif.Lemmas.StereoDrawing
import Verif.Props.StereoTrackerWitness

/-!
# The images that the stereo tracker draws (C152)
-/

namespace Serpent

namespace Stereo

section

variable {I K : Type} [Field K] [LinearOrder K]

theorem process_images {v : Vision I K} (hv : v.Sound) (cfg : TrackerConfig K) {s : Tracker I K}
    {os : List (Observation K)} (h : Holds s os) (left right : I) :
    ((process v cfg left right s).1 = .throws ∧ (process v cfg left right s).2.images = s.images ∧
      (v.size left ≠ v.size right → (process v cfg left right s).2 = s) ∧
      (v.size left = v.size right → (process v cfg left right s).2.frameNumber = s.frameNumber + 1)) ∨
    ((∃ r, (process v cfg left right s).1 = .ok r) ∧ (process v cfg left right s).2.images = some (left, right)) := by
  by_cases hsz : v.size left = v.size right
  · rcases process_spec hv cfg s os h.track left right with ⟨-, h2, -⟩ | ⟨h1, h2⟩ | ⟨h1, _, _, _, _, _, -, h2⟩ |
      ⟨hs, ps, t, st, s', h1, -, h2⟩
    · exact absurd hsz h2
    · exact Or.inl ⟨h1, by rw [h2], fun hn => absurd hsz hn, fun _ => by rw [h2]⟩
    · exact Or.inl ⟨h1, by rw [h2], fun hn => absurd hsz hn, fun _ => by rw [h2]⟩
    · exact Or.inr ⟨⟨_, by rw [h1]⟩, by rw [h1, h2.state]⟩
  · have e : process v cfg left right s = (.throws, s) := by
      unfold process
      rw [if_pos hsz]
      rfl
    exact Or.inl ⟨by rw [e], by rw [e], fun _ => by rw [e], fun hn => absurd hn hsz⟩

theorem process_holds {v : Vision I K} (hv : v.Sound) (cfg : TrackerConfig K) {s : Tracker I K}
    {os : List (Observation K)} (h : Holds s os) (left right : I) : ∃ os', Holds (process v cfg left right s).2 os' := by
  rcases step hv cfg h left right with ⟨-, os', h', -⟩ | ⟨hs, ps, st', s', he, -, -, h'⟩
  · exact ⟨os', h'⟩
  · exact ⟨_, by rw [he]; exact h'⟩

/-- The images of the previous frame are kept, or no frame was processed and the first one will be. -/
def Ready (v : Vision I K) (cfg : TrackerConfig K) (frames : List (I × I)) (s : Tracker I K) : Prop :=
  s.images.isSome ∨ (s.frameNumber = -1 ∧ StartsWell v cfg frames s)

theorem run_cons (v : Vision I K) (cfg : TrackerConfig K) (f : I × I) (fs : List (I × I))
    (s : Tracker I K) : run v cfg (f :: fs) s = ((process v cfg f.1 f.2 s).1 :: (run v cfg fs (process v cfg f.1 f.2 s).2).1,
      (run v cfg fs (process v cfg f.1 f.2 s).2).2) := rfl

theorem ready_step {v : Vision I K} (hv : v.Sound) {cfg : TrackerConfig K} {f : I × I} {fs : List (I × I)} {s : Tracker I K}
    {os : List (Observation K)} (h : Holds s os) (hr : Ready v cfg (f :: fs) s) :
    Ready v cfg fs (process v cfg f.1 f.2 s).2 := by
  rcases process_images hv cfg h f.1 f.2 with ⟨h1, h2, h3, -⟩ | ⟨-, h2⟩
  · rcases hr with hi | ⟨hf, hw⟩
    · exact Or.inl (by rw [h2]; exact hi)
    · have hne : v.size f.1 ≠ v.size f.2 := by
        rcases hw 0 f rfl (by rw [run_cons, h1]; rfl) with hn | ⟨i, hi, -⟩
        · exact hn
        · omega
      have e := h3 hne
      refine Or.inr ⟨by rw [e]; exact hf, ?_⟩
      intro j g hg ht
      rcases hw (j + 1) g (by simpa using hg) (by rw [run_cons]; simpa using ht) with hn | ⟨i, hi, r, hir⟩
      · exact Or.inl hn
      · cases i with
        | zero => rw [run_cons, h1] at hir; simp at hir
        | succ i => exact Or.inr ⟨i, by omega, r, by rw [run_cons] at hir; simpa using hir⟩
  · exact Or.inl (by rw [h2]; rfl)

theorem ready_images {v : Vision I K} {cfg : TrackerConfig K} {fs : List (I × I)} {s : Tracker I K}
    (hr : Ready v cfg fs s) : s.frameNumber + 1 > 0 → s.images.isSome := by
  rcases hr with hi | ⟨hf, -⟩
  · exact fun _ => hi
  · intro h; omega

theorem drawn_eq {c : Canvas I K} (hc : c.Sound) {v : Vision I K} (hv : v.Sound) {cfg : TrackerConfig K} {s : Tracker I K}
    {os : List (Observation K)} (h : Holds s os) (hi : s.frameNumber + 1 > 0 → s.images.isSome) (left right : I) :
    withoutImages (processDrawn c v cfg left right s).1 = (process v cfg left right s).1 ∧
    (processDrawn c v cfg left right s).2 = (process v cfg left right s).2 := by
  rcases processDrawn_spec hc hv cfg s os h.track hi left right with ⟨s', h1, h2⟩ | ⟨_, _, t, st, s', im, h1, h2, -, -⟩
  · rw [h1, h2]; exact ⟨rfl, rfl⟩
  · rw [h1, h2]; exact ⟨rfl, rfl⟩

theorem runDrawn_eq {c : Canvas I K} (hc : c.Sound) {v : Vision I K} (hv : v.Sound) {cfg : TrackerConfig K}
    (frames : List (I × I)) (s : Tracker I K) (os : List (Observation K)) (h : Holds s os) (hr : Ready v cfg frames s) :
    (runDrawn c v cfg frames s).1.map withoutImages = (run v cfg frames s).1 ∧
    (runDrawn c v cfg frames s).2 = (run v cfg frames s).2 := by
  induction frames generalizing s os with
  | nil => exact ⟨rfl, rfl⟩
  | cons f fs ih =>
    obtain ⟨e1, e2⟩ := drawn_eq hc hv h (ready_images hr) f.1 f.2
    obtain ⟨os', h'⟩ := process_holds hv cfg h f.1 f.2
    obtain ⟨i1, i2⟩ := ih _ os' h' (ready_step hv h hr)
    rw [run_cons]
    unfold runDrawn
    dsimp only
    rw [List.map_cons, e1, e2, i1, i2]
    exact ⟨rfl, rfl⟩

theorem runDrawn_at {c : Canvas I K} (hc : c.Sound) {v : Vision I K} (hv : v.Sound) {cfg : TrackerConfig K}
    (frames : List (I × I)) (s : Tracker I K) (os : List (Observation K)) (h : Holds s os) (hr : Ready v cfg frames s)
    (j : Nat) (f : I × I) (hj : frames[j]? = some f) :
    ∃ s' os', s' = (run v cfg (frames.take j) s).2 ∧ Holds s' os' ∧ (s'.frameNumber + 1 > 0 → s'.images.isSome) ∧
      (runDrawn c v cfg frames s).1[j]? = some (processDrawn c v cfg f.1 f.2 s').1 ∧
      (run v cfg frames s).1[j]? = some (process v cfg f.1 f.2 s').1 ∧
      (run v cfg (frames.take (j + 1)) s).2 = (process v cfg f.1 f.2 s').2 := by
  induction frames generalizing s os j with
  | nil => simp at hj
  | cons g fs ih =>
    cases j with
    | zero =>
      rw [List.getElem?_cons_zero, Option.some_inj] at hj
      subst hj
      exact ⟨s, os, rfl, h, ready_images hr, rfl, rfl, by simp [run]⟩
    | succ j =>
      rw [List.getElem?_cons_succ] at hj
      obtain ⟨-, e2⟩ := drawn_eq hc hv h (ready_images hr) g.1 g.2
      obtain ⟨os', h'⟩ := process_holds hv cfg h g.1 g.2
      obtain ⟨s', os'', h1, h2, h3, h4, h5, h6⟩ := ih _ os' h' (ready_step hv h hr) j hj
      refine ⟨s', os'', ?_, h2, h3, ?_, ?_, ?_⟩
      · rw [List.take_succ_cons, run_cons]; exact h1
      · unfold runDrawn
        dsimp only
        rw [e2, List.getElem?_cons_succ]
        exact h4
      · rw [run_cons, List.getElem?_cons_succ]; exact h5
      · rw [List.take_succ_cons, run_cons]; exact h6

theorem ready_init (v : Vision I K) (cfg : TrackerConfig K) (df : Option (DistanceFilter K)) (frames : List (I × I))
    (hw : StartsWell v cfg frames (Tracker.init df)) : Ready v cfg frames (Tracker.init df) := Or.inr ⟨rfl, hw⟩

/-- C152. If the first frame is processed without an exception (frames whose images differ in size do not count), then a tracker
that draws gives the same outcome for every frame, and is in the same state at the end, as one that does not. -/
theorem C152_harmless_partial (c : Canvas I K) (hc : c.Sound) (v : Vision I K) (hv : v.Sound) (cfg : TrackerConfig K)
    (df : Option (DistanceFilter K)) (frames : List (I × I)) (hw : StartsWell v cfg frames (Tracker.init df)) :
    (runDrawn c v cfg frames (Tracker.init df)).1.map withoutImages = (run v cfg frames (Tracker.init df)).1 ∧
    (runDrawn c v cfg frames (Tracker.init df)).2 = (run v cfg frames (Tracker.init df)).2 :=
  runDrawn_eq hc hv frames _ [] (holds_init df) (ready_init v cfg df frames hw)

/-- C152. The images of a frame: the keypoints that the detector finds in the two images; the tracked features of the output
(twice), which come first in it, and the new features, which are the others. The flow is not drawn in the first frame. -/
theorem C152_contents (c : Canvas I K) (hc : c.Sound) (v : Vision I K) (hv : v.Sound) (cfg : TrackerConfig K)
    (df : Option (DistanceFilter K)) (frames : List (I × I)) (hw : StartsWell v cfg frames (Tracker.init df))
    (j : Nat) (f : I × I) (hf : frames[j]? = some f) (t : Track K) (st : Stats) (im : Images I K)
    (h : (runDrawn c v cfg frames (Tracker.init df)).1[j]? = some (.ok ((t, st), im))) :
    (∃ newL newR, v.detect f.1 = .ok newL ∧ v.detect f.2 = .ok newR ∧
      im.extracted = (.keypoints f.1 newL, .keypoints f.2 newR)) ∧
    (st.frameNumber = 0 → im.sofMatches = none) ∧
    ∃ os, t = ofObs os ∧
      im.tracked.of = (some f.1, some f.2) ∧ im.stereoFiltered.of = (some f.1, some f.2) ∧ im.new.of = (some f.1, some f.2) ∧
      im.tracked.shown = (os.take st.trackedMatchCount).map (fun o => (o.left, o.right)) ∧
      im.stereoFiltered.shown = (os.take st.trackedMatchCount).map (fun o => (o.left, o.right)) ∧
      im.new.shown = (os.drop st.trackedMatchCount).map (fun o => (o.left, o.right)) := by
  obtain ⟨s, os, -, hh, hi, h1, -, -⟩ := runDrawn_at hc hv frames _ [] (holds_init df) (ready_init v cfg df frames hw) j f hf
  rw [h1, Option.some_inj] at h
  rcases processDrawn_spec hc hv cfg s os hh.track hi f.1 f.2 with ⟨s', -, h2⟩ | ⟨hs, ps, t', st', s', im', -, h2, hp, hd⟩
  · rw [h2] at h; cases h
  rw [h2] at h
  cases Outcome.ok.inj h
  refine ⟨hd.extracted, ?_, _, hp.track, hd.tracked.1, hd.filtered.1, hd.new.1, ?_, ?_, ?_⟩
  · intro h0
    rcases hd.sof with ⟨hf, -⟩ | ⟨-, hn⟩
    · rw [hp.frameNumber] at h0; omega
    · exact hn
  · rw [hp.tracked, List.take_left' rfl]; exact hd.tracked.2
  · rw [hp.tracked, List.take_left' rfl]; exact hd.filtered.2
  · rw [hp.tracked, List.drop_left' rfl, hd.new.2]
    unfold fresh
    rw [List.map_map]
    have := filter_zipIdx_map ps (fun _ => true) (fun o => (o.left, o.right))
    simp only [List.filter_true] at this
    exact this.symm

/-- C152. The flow between two frames that follow each other: the drawing connects the features of the previous output with the
places where the flow finds them, for each image on its own, whether or not they become features of the next output. -/
theorem C152_flow (c : Canvas I K) (hc : c.Sound) (v : Vision I K) (hv : v.Sound) (cfg : TrackerConfig K)
    (df : Option (DistanceFilter K)) (frames : List (I × I)) (hw : StartsWell v cfg frames (Tracker.init df))
    (j : Nat) (f f' : I × I) (hf : frames[j]? = some f) (hf' : frames[j + 1]? = some f')
    (os : List (Observation K)) (st : Stats) (im : Images I K) (t' : Track K) (st' : Stats) (im' : Images I K)
    (h : (runDrawn c v cfg frames (Tracker.init df)).1[j]? = some (.ok ((ofObs os, st), im)))
    (h' : (runDrawn c v cfg frames (Tracker.init df)).1[j + 1]? = some (.ok ((t', st'), im'))) :
    ∃ fl fr dl dr, Flow v f.1 f'.1 (os.map (·.left)) fl ∧ Flow v f.2 f'.2 (os.map (·.right)) fr ∧
      im'.sofMatches = some (dl, dr) ∧ dl.of = (some f.1, some f'.1) ∧ dr.of = (some f.2, some f'.2) ∧
      dl.shown = found (os.map (·.left)) fl ∧ dr.shown = found (os.map (·.right)) fr := by
  obtain ⟨s, os1, -, hh, hi, h1, -, hn⟩ := runDrawn_at hc hv frames _ [] (holds_init df) (ready_init v cfg df frames hw) j f hf
  obtain ⟨s2, os2, he, hh2, hi2, h12, -, -⟩ :=
    runDrawn_at hc hv frames _ [] (holds_init df) (ready_init v cfg df frames hw) (j + 1) f' hf'
  rw [h1, Option.some_inj] at h
  rw [h12, Option.some_inj] at h'
  rcases processDrawn_spec hc hv cfg s os1 hh.track hi f.1 f.2 with ⟨s', -, h2⟩ | ⟨hs, ps, t, st1, s', im1, hq, h2, hp, hd⟩
  · rw [h2] at h; cases h
  rw [h2] at h
  cases Outcome.ok.inj h
  rw [hq] at hn
  dsimp only at hn
  rw [hn] at he
  subst he
  have htr : s2.track = ofObs os := by rw [hp.state]
  have himg : s2.images = some f := by rw [hp.state]
  have hfr : s2.frameNumber + 1 > 0 := by
    have := hh.frame
    rw [hp.state]
    dsimp only
    omega
  rcases processDrawn_spec hc hv cfg s2 os htr hi2 f'.1 f'.2 with ⟨s', -, h2'⟩ | ⟨hs', ps', t2, st2, s', im2, -, h2', hp', hd'⟩
  · rw [h2'] at h'; cases h'
  rw [h2'] at h'
  cases Outcome.ok.inj h'
  rcases hd'.sof with ⟨-, i, fl, fr, dl, dr, hi, hl, hr, hsof, ho1, ho2, hs1, hs2⟩ | ⟨hf, -⟩
  · rw [himg, Option.some_inj] at hi
    subst hi
    have conv : ∀ (p q : I) (kps : List (KeyPoint K)) (r : List (Nat × K × K)), flowOf v (some p) q kps = .ok r →
        Flow v p q kps r := by
      intro p q kps r hr
      unfold flowOf at hr
      unfold Flow
      by_cases hk : kps = []
      · subst hk
        rw [if_pos rfl]
        exact (Outcome.ok.inj hr).symm
      · rw [if_neg hk]
        rw [if_pos (List.length_pos_iff.2 hk)] at hr
        exact hr
    exact ⟨fl, fr, dl, dr, conv _ _ _ _ hl, conv _ _ _ _ hr, hsof, ho1, ho2, hs1, hs2⟩
  · exact absurd hfr hf

omit [Field K] [LinearOrder K] in
theorem checked_sound : (Canvas.checked : Canvas I K).Sound := fun _ hd => if_pos hd

/-- Without previous images, OpenCV throws when the flow is drawn, and the tracker keeps no images. -/
theorem stuck_step {v : Vision I K} (hv : v.Sound) (cfg : TrackerConfig K) (s : Tracker I K) (os : List (Observation K))
    (ht : s.track = ofObs os) (hi : s.images = none) (hf : 0 ≤ s.frameNumber) (left right : I) :
    (processDrawn Canvas.checked v cfg left right s).1 = .throws ∧
    (processDrawn Canvas.checked v cfg left right s).2.track = ofObs os ∧
    (processDrawn Canvas.checked v cfg left right s).2.images = none ∧
    0 ≤ (processDrawn Canvas.checked v cfg left right s).2.frameNumber := by
  have hf' : 0 ≤ s.frameNumber + 1 := by omega
  unfold processDrawn
  by_cases hsz : v.size left ≠ v.size right
  · rw [if_pos hsz]; exact ⟨rfl, ht, hi, hf⟩
  rw [if_neg hsz, M.modify_bind]
  cases hdl : v.detect left with
  | ub => exact absurd hdl (hv.detect _)
  | throws => rw [M.lift_throws_bind]; exact ⟨rfl, ht, hi, hf'⟩
  | ok newL =>
    rw [M.lift_ok_bind, Canvas.draw_legal checked_sound (d := .keypoints left newL) trivial, M.lift_ok_bind]
    cases hdr : v.detect right with
    | ub => exact absurd hdr (hv.detect _)
    | throws => rw [M.lift_throws_bind]; exact ⟨rfl, ht, hi, hf'⟩
    | ok newR =>
      rw [M.lift_ok_bind, Canvas.draw_legal checked_sound (d := .keypoints right newR) trivial, M.lift_ok_bind, M.get_bind]
      rcases hypotheses_spec hv cfg s os ht left right newL newR with h | ⟨hs, kl, kr, hm, h⟩
      · rw [h, M.lift_throws_bind]; exact ⟨rfl, ht, hi, hf'⟩
      rw [h, M.lift_ok_bind]
      have hthrow : sofDrawings Canvas.checked v { s with frameNumber := s.frameNumber + 1 } left right = .throws := by
        unfold sofDrawings
        dsimp only
        rw [if_pos (by omega), hi]
        dsimp only [Option.map_none]
        unfold sofDrawing
        cases hfl : flowOf v none left s.track.left with
        | ub =>
          unfold flowOf at hfl
          split at hfl <;> cases hfl
        | throws => rfl
        | ok fl =>
          rw [Outcome.bind_ok, flowMatches_spec _ _ (flowOf_length hv hfl), Outcome.bind_ok]
          rfl
      rw [hthrow, M.lift_throws_bind]
      exact ⟨rfl, ht, hi, hf'⟩

theorem stuck {v : Vision I K} (hv : v.Sound) (cfg : TrackerConfig K) (frames : List (I × I)) (s : Tracker I K)
    (os : List (Observation K)) (ht : s.track = ofObs os) (hi : s.images = none) (hf : 0 ≤ s.frameNumber) :
    ∀ o ∈ (runDrawn Canvas.checked v cfg frames s).1, o = .throws := by
  induction frames generalizing s with
  | nil => intro o ho; cases ho
  | cons f fs ih =>
    obtain ⟨h1, h2, h3, h4⟩ := stuck_step hv cfg s os ht hi hf f.1 f.2
    intro o ho
    unfold runDrawn at ho
    rcases List.mem_cons.1 ho with rfl | ho
    · exact h1
    · exact ih _ h2 h3 h4 o ho

/-- C152. If the first frame throws, a tracker that draws never processes a frame again: the images of the first frame are not
kept, but from the second frame on the flow from the previous images is drawn. -/
theorem C152_stuck_after_first_exception (v : Vision I K) (hv : v.Sound) (cfg : TrackerConfig K)
    (df : Option (DistanceFilter K)) (f : I × I) (frames : List (I × I)) (hsz : v.size f.1 = v.size f.2)
    (ht : (process v cfg f.1 f.2 (Tracker.init df)).1 = .throws) :
    ∀ o ∈ (runDrawn Canvas.checked v cfg (f :: frames) (Tracker.init df)).1, o = .throws := by
  have hi : (Tracker.init df : Tracker I K).frameNumber + 1 > 0 → (Tracker.init df : Tracker I K).images.isSome := by
    intro h
    exact absurd h (by show ¬ ((-1 : Int) + 1 > 0); decide)
  obtain ⟨e1, e2⟩ := drawn_eq checked_sound hv (cfg := cfg) (holds_init df) hi f.1 f.2
  rcases process_images hv cfg (holds_init df) f.1 f.2 with ⟨-, h2, -, h4⟩ | ⟨⟨r, hr⟩, -⟩
  · obtain ⟨os', h'⟩ := process_holds hv cfg (holds_init df) f.1 f.2
    intro o ho
    unfold runDrawn at ho
    rcases List.mem_cons.1 ho with rfl | ho
    · rw [ht] at e1
      cases hp : (processDrawn Canvas.checked v cfg f.1 f.2 (Tracker.init df)).1 with
      | throws => rfl
      | ok r => rw [hp] at e1; cases e1
      | ub => rw [hp] at e1; cases e1
    · rw [e2] at ho
      exact stuck hv cfg frames _ os' h'.track h2 (by rw [h4 hsz]; show (0 : Int) ≤ -1 + 1; decide) o ho
  · rw [ht] at hr; cases hr

end

/-! ### Concrete cases -/

/-- C152 fails after an exception in the first frame: without drawing the second frame is processed, and gives a feature; with
drawing every frame throws, however many follow. -/
theorem C152_fails_first_exception :
    ∃ (v : Vision (Nat × Bool) ℚ) (cfg : TrackerConfig ℚ) (f g : (Nat × Bool) × (Nat × Bool)), v.Sound ∧
      (∃ o st, (run v cfg [f, g] (Tracker.init none)).1 = [.throws, .ok (ofObs [o], st)]) ∧
      ∀ frames, ∀ o ∈ (runDrawn Canvas.checked v cfg (f :: g :: frames) (Tracker.init none)).1, o = .throws := by
  refine ⟨moving true, movingConfig, ((1, true), (1, false)), ((0, true), (0, false)), moving_sound true,
    ⟨⟨0, movingKp 10 7, movingKp 5 7, 3⟩, ⟨1, 0, -1, some (0, 0), 0, (1, 1), some (1, 1), 1, 1, [0]⟩, by decide +kernel⟩, ?_⟩
  intro frames
  exact C152_stuck_after_first_exception _ (moving_sound true) _ _ _ _ rfl (by decide +kernel)

-- The moving camera starts well. In the third frame the flow of feature 0 is drawn, and feature 1 as a new one.
example : StartsWell (moving false) movingConfig (framesOf [0, 1, 2]) (Tracker.init none) ∧
    (((runDrawn Canvas.checked (moving false) movingConfig (framesOf [0, 1, 2]) (Tracker.init none)).1[2]?).map fun o =>
      match o with
      | .ok (_, im) => (im.sofMatches.map fun d => (d.1.shown.map fun p => (p.1.x, p.2.x)),
          im.tracked.shown.map (fun p => (p.1.x, p.2.x)), im.new.shown.map (fun p => (p.1.x, p.2.x)))
      | _ => (none, [], [])) = some (some [(11, 12)], [(12, 7)], [(50, 30)]) := by
  refine ⟨?_, by decide +kernel⟩
  intro j f hf ht
  have hlt : j < 3 := by
    have := (List.getElem?_eq_some_iff.1 ht).1
    rw [run_length] at this
    exact this
  match j, hlt with
  | 0, _ => exact absurd ht (by decide +kernel)
  | 1, _ => exact absurd ht (by decide +kernel)
  | 2, _ => exact absurd ht (by decide +kernel)

end Stereo

end Serpent
