import Verif.Spec.StereoMask
import Verif.Lemmas.StereoHistory
import Verif.Props.DataSets

/-!
# C150: the region in which stereo features are searched
-/

namespace Serpent

namespace Stereo

variable {I K : Type} [Field K] [LinearOrder K]

/-! ### The mask -/

/-- The masks that occur: none, the region, or no pixel at all (after a region that did not fit). -/
def MaskInv (roi : Params.Rect) (m : Mask) : Prop :=
  m = .none ∨ roi ≠ noRegion ∧ (m = regionMask roi (m.rows, m.cols) ∨ m = .zeros (m.rows, m.cols))

theorem contains_iff {roi : Params.Rect} {size : Int × Int} : (Mask.zeros size).contains roi ↔ Fits roi size := by
  unfold Mask.contains Fits Mask.zeros
  constructor
  · rintro ⟨a, b, c, d, e, f⟩; exact ⟨a, d, b, e, c, f⟩
  · rintro ⟨a, d, b, e, c, f⟩; exact ⟨a, b, c, d, e, f⟩

theorem fill_zeros {roi : Params.Rect} (h : roi ≠ noRegion) (size : Int × Int) :
    (Mask.zeros size).fill roi = regionMask roi size := by
  unfold regionMask
  rw [if_neg h]
  unfold Mask.fill Mask.zeros
  rw [Mask.mk.injEq]
  refine ⟨rfl, rfl, ?_⟩
  funext row col
  by_cases hr : InRegion roi row col
  · rw [decide_eq_true hr]
    exact if_pos hr
  · rw [decide_eq_false hr]
    exact if_neg hr

theorem prepare_same {roi : Params.Rect} {size : Int × Int} {m : Mask} (h : roi = noRegion ∨ (m.rows, m.cols) = size) :
    prepareMask roi size m = (.ok (), m) := by
  show (if roi ≠ noRegion ∧ (m.rows, m.cols) ≠ size then _ else _ : M Mask Unit) m = _
  rw [if_neg (by tauto)]
  rfl

theorem prepare_new {roi : Params.Rect} {size : Int × Int} {m : Mask} (h : roi ≠ noRegion) (hm : (m.rows, m.cols) ≠ size) :
    prepareMask roi size m = if Fits roi size then (.ok (), regionMask roi size) else (.throws, .zeros size) := by
  show (if roi ≠ noRegion ∧ (m.rows, m.cols) ≠ size then _ else _ : M Mask Unit) m = _
  rw [if_pos ⟨h, hm⟩]
  show (if (Mask.zeros size).contains roi then _ else _ : M Mask Unit) (Mask.zeros size) = _
  by_cases hf : Fits roi size
  · rw [if_pos hf, if_pos (contains_iff.2 hf)]
    show (Outcome.ok (), (Mask.zeros size).fill roi) = _
    rw [fill_zeros h]
  · rw [if_neg hf, if_neg (fun hc => hf (contains_iff.1 hc))]
    rfl

theorem prepare_inv {roi : Params.Rect} {size : Int × Int} {m : Mask} (h : MaskInv roi m) :
    MaskInv roi (prepareMask roi size m).2 := by
  by_cases h1 : roi = noRegion ∨ (m.rows, m.cols) = size
  · rw [prepare_same h1]; exact h
  · push Not at h1
    rw [prepare_new h1.1 h1.2]
    split
    · refine Or.inr ⟨h1.1, Or.inl ?_⟩
      show regionMask roi size = regionMask roi ((regionMask roi size).rows, (regionMask roi size).cols)
      unfold regionMask
      simp only [if_neg h1.1]
    · exact Or.inr ⟨h1.1, Or.inr rfl⟩

/-! ### One frame -/

/-- The tracker looks at the detector only for the two images. -/
theorem process_congr (v : MaskedVision I K) (roi : Params.Rect) (cfg : TrackerConfig K) (left right : I) (m : Mask)
    (hsz : v.size left = v.size right) (hm : m = regionMask roi (v.size left)) (s : Tracker I K) :
    process (v.using m) cfg left right s = process (v.inRegion roi) cfg left right s := by
  subst hm
  have h1 : (v.using (regionMask roi (v.size left))).detect left = (v.inRegion roi).detect left := rfl
  have h2 : (v.using (regionMask roi (v.size left))).detect right = (v.inRegion roi).detect right := by
    show v.detect right (regionMask roi (v.size left)) = v.detect right (regionMask roi (v.size right))
    rw [hsz]
  unfold process
  rw [h1, h2]
  rfl

theorem process_sizes (v : Vision I K) (cfg : TrackerConfig K) (left right : I) (h : v.size left ≠ v.size right) (s : Tracker I K) :
    process v cfg left right s = (.throws, s) := by
  unfold process
  rw [if_pos h]
  rfl

theorem processMasked_sizes {v : MaskedVision I K} {roi : Params.Rect} {cfg : TrackerConfig K} {left right : I}
    (h : v.size left ≠ v.size right) (s : MaskedTracker I K) : processMasked v roi cfg left right s = (.throws, s) := by
  unfold processMasked
  rw [if_pos h]

theorem processMasked_ok {v : MaskedVision I K} {roi : Params.Rect} {cfg : TrackerConfig K} {left right : I}
    {s : MaskedTracker I K} {m : Mask} (h : v.size left = v.size right) (hm : prepareMask roi (v.size left) s.mask = (.ok (), m)) :
    processMasked v roi cfg left right s =
      ((process (v.using m) cfg left right s.tracker).1, ⟨(process (v.using m) cfg left right s.tracker).2, m⟩) := by
  unfold processMasked
  rw [if_neg (not_not.2 h), hm]

theorem processMasked_throws {v : MaskedVision I K} {roi : Params.Rect} {cfg : TrackerConfig K} {left right : I}
    {s : MaskedTracker I K} {m : Mask} (h : v.size left = v.size right) (hm : prepareMask roi (v.size left) s.mask = (.throws, m)) :
    processMasked v roi cfg left right s = (.throws, ⟨{ s.tracker with frameNumber := s.tracker.frameNumber + 1 }, m⟩) := by
  unfold processMasked
  rw [if_neg (not_not.2 h), hm]

theorem prepare_cases (roi : Params.Rect) (size : Int × Int) (m : Mask) :
    (∃ m', prepareMask roi size m = (.ok (), m')) ∨ ∃ m', prepareMask roi size m = (.throws, m') := by
  by_cases h1 : roi = noRegion ∨ (m.rows, m.cols) = size
  · exact Or.inl ⟨_, prepare_same h1⟩
  · push Not at h1
    rw [prepare_new h1.1 h1.2]
    split
    · exact Or.inl ⟨_, rfl⟩
    · exact Or.inr ⟨_, rfl⟩

/-- No region, or one that fits: the mask is made. -/
theorem prepare_fits {roi : Params.Rect} {size : Int × Int} {m : Mask} (hf : roi = noRegion ∨ Fits roi size)
    (hm : m = .none ∨ roi ≠ noRegion ∧ m = regionMask roi (m.rows, m.cols)) :
    prepareMask roi size m = (.ok (), regionMask roi size) := by
  by_cases h0 : roi = noRegion
  · rw [prepare_same (Or.inl h0)]
    rcases hm with rfl | ⟨h, -⟩
    · unfold regionMask
      rw [if_pos h0]
    · exact absurd h0 h
  · have hf := hf.resolve_left h0
    by_cases hs : (m.rows, m.cols) = size
    · rw [prepare_same (Or.inr hs)]
      rcases hm with rfl | ⟨-, h⟩
      · exfalso
        obtain ⟨a, b, c, d, e, f⟩ := hf
        subst hs
        unfold Mask.none at e f
        apply h0
        obtain ⟨x, y, w, h⟩ := roi
        dsimp only at a b c d e f
        unfold noRegion
        rw [Params.Rect.mk.injEq]
        omega
      · rw [h, ← hs]
    · rw [prepare_new h0 hs, if_pos hf]

/-! ### Histories -/

theorem runMasked_eq (v : MaskedVision I K) (roi : Params.Rect) (cfg : TrackerConfig K) (frames : List (I × I)) :
    ∀ s : MaskedTracker I K, (s.mask = .none ∨ roi ≠ noRegion ∧ s.mask = regionMask roi (s.mask.rows, s.mask.cols)) →
      (∀ f ∈ frames, v.size f.1 = v.size f.2 → roi = noRegion ∨ Fits roi (v.size f.1)) →
      (runMasked v roi cfg frames s).1 = (run (v.inRegion roi) cfg frames s.tracker).1 ∧
      (runMasked v roi cfg frames s).2.tracker = (run (v.inRegion roi) cfg frames s.tracker).2 := by
  induction frames with
  | nil => intro s _ _; exact ⟨rfl, rfl⟩
  | cons f fs ih =>
    intro s hs hf
    by_cases hsz : v.size f.1 = v.size f.2
    · have hp := processMasked_ok (cfg := cfg) hsz (prepare_fits (hf f List.mem_cons_self hsz) hs)
      have hc := process_congr v roi cfg f.1 f.2 _ hsz rfl s.tracker
      have hm : regionMask roi (v.size f.1) = .none ∨ roi ≠ noRegion ∧ regionMask roi (v.size f.1) =
          regionMask roi ((regionMask roi (v.size f.1)).rows, (regionMask roi (v.size f.1)).cols) := by
        by_cases h0 : roi = noRegion
        · exact Or.inl (by unfold regionMask; rw [if_pos h0])
        · exact Or.inr ⟨h0, by unfold regionMask; simp only [if_neg h0]⟩
      have := ih ⟨(process (v.inRegion roi) cfg f.1 f.2 s.tracker).2, regionMask roi (v.size f.1)⟩ hm
        (fun g hg => hf g (List.mem_cons_of_mem _ hg))
      unfold runMasked run
      rw [hp, hc]
      dsimp only
      exact ⟨by rw [this.1], this.2⟩
    · have := ih s hs (fun g hg => hf g (List.mem_cons_of_mem _ hg))
      unfold runMasked run
      rw [processMasked_sizes hsz, process_sizes (v.inRegion roi) cfg f.1 f.2 hsz]
      dsimp only
      exact ⟨by rw [this.1], this.2⟩

/-- **C150.** In every history of stereo frames, of whatever sizes, with no region or one that fits into the images, the outcomes are
those of the tracker whose detector is given, for each image, exactly the region (and no mask without a region). -/
theorem C150_region (v : MaskedVision I K) (roi : Params.Rect) (cfg : TrackerConfig K) (df : Option (DistanceFilter K))
    (frames : List (I × I)) (hf : ∀ f ∈ frames, v.size f.1 = v.size f.2 → roi = noRegion ∨ Fits roi (v.size f.1)) :
    (runMasked v roi cfg frames (.init df)).1 = (run (v.inRegion roi) cfg frames (.init df)).1 :=
  (runMasked_eq v roi cfg frames (.init df) (Or.inl rfl) hf).1

theorem runMasked_length (v : MaskedVision I K) (roi : Params.Rect) (cfg : TrackerConfig K) (frames : List (I × I))
    (s : MaskedTracker I K) : (runMasked v roi cfg frames s).1.length = frames.length := by
  induction frames generalizing s with
  | nil => rfl
  | cons f fs ih => simp [runMasked, ih]

theorem fits_of_ok (v : MaskedVision I K) (roi : Params.Rect) (cfg : TrackerConfig K) (frames : List (I × I)) :
    ∀ s : MaskedTracker I K, (s.mask = .none ∨ roi ≠ noRegion ∧ s.mask = regionMask roi (s.mask.rows, s.mask.cols) ∧
        Fits roi (s.mask.rows, s.mask.cols)) →
      (∀ o ∈ (runMasked v roi cfg frames s).1, ∃ r, o = .ok r) →
      ∀ f ∈ frames, v.size f.1 = v.size f.2 ∧ (roi = noRegion ∨ Fits roi (v.size f.1) ∨ v.size f.1 = (0, 0)) := by
  induction frames with
  | nil => intro s _ _ f hf; simp at hf
  | cons g gs ih =>
    intro s hs ho f hf
    have h0 : ∃ r, (processMasked v roi cfg g.1 g.2 s).1 = .ok r := ho _ List.mem_cons_self
    have h1 : ∀ o ∈ (runMasked v roi cfg gs (processMasked v roi cfg g.1 g.2 s).2).1, ∃ r, o = .ok r :=
      fun o hm => ho o (List.mem_cons_of_mem _ hm)
    obtain ⟨r, hr⟩ := h0
    have hsz : v.size g.1 = v.size g.2 := by
      by_contra hc
      rw [processMasked_sizes hc] at hr
      cases hr
    rcases prepare_cases roi (v.size g.1) s.mask with ⟨m, hm⟩ | ⟨m, hm⟩
    · have key : (roi = noRegion ∨ Fits roi (v.size g.1) ∨ v.size g.1 = (0, 0)) ∧
          (m = .none ∨ roi ≠ noRegion ∧ m = regionMask roi (m.rows, m.cols) ∧ Fits roi (m.rows, m.cols)) := by
        by_cases hn : roi = noRegion
        · rw [prepare_same (Or.inl hn)] at hm
          rw [← (Prod.mk.inj hm).2]
          exact ⟨Or.inl hn, hs⟩
        · by_cases hsame : (s.mask.rows, s.mask.cols) = v.size g.1
          · rw [prepare_same (Or.inr hsame)] at hm
            rw [← (Prod.mk.inj hm).2]
            refine ⟨?_, hs⟩
            rcases hs with hs | ⟨-, -, hs⟩
            · rw [hs] at hsame
              exact Or.inr (Or.inr hsame.symm)
            · rw [hsame] at hs
              exact Or.inr (Or.inl hs)
          · rw [prepare_new hn hsame] at hm
            by_cases hfit : Fits roi (v.size g.1)
            · rw [if_pos hfit] at hm
              rw [← (Prod.mk.inj hm).2]
              refine ⟨Or.inr (Or.inl hfit), Or.inr ⟨hn, ?_, ?_⟩⟩
              · unfold regionMask
                simp only [if_neg hn]
              · unfold regionMask
                simp only [if_neg hn]
                exact hfit
            · rw [if_neg hfit] at hm
              cases (Prod.mk.inj hm).1
      rcases List.mem_cons.1 hf with rfl | hf
      · exact ⟨hsz, key.1⟩
      · rw [processMasked_ok hsz hm] at h1
        exact ih _ key.2 h1 f hf
    · rw [processMasked_throws hsz hm] at hr
      cases hr

/-- **C150.** As long as no call has thrown, the two images of every frame have the same size and the region fits into them (unless
there is no region, or the image has no pixels): a region that does not fit ends the node with the first image. -/
theorem C150_fits (v : MaskedVision I K) (roi : Params.Rect) (cfg : TrackerConfig K) (df : Option (DistanceFilter K))
    (frames : List (I × I)) (ho : ∀ o ∈ (runMasked v roi cfg frames (.init df)).1, ∃ r, o = .ok r) :
    ∀ f ∈ frames, v.size f.1 = v.size f.2 ∧ (roi = noRegion ∨ Fits roi (v.size f.1) ∨ v.size f.1 = (0, 0)) :=
  fits_of_ok v roi cfg frames (.init df) (Or.inl rfl) ho

/-! ### New features are in the region -/

theorem new_detected {v : Vision I K} {cfg : TrackerConfig K} {s : Tracker I K} {os : List (Observation K)} {left right : I}
    {hs : List (Observation K)} {ps : List (Pair K)} {t : Track K} {st : Stats} {s' : Tracker I K}
    (h : Processed v cfg s os left right hs ps t st s') :
    ∃ newL newR, v.detect left = .ok newL ∧ v.detect right = .ok newR ∧ ∀ p ∈ ps, p.left ∈ newL ∧ p.right ∈ newR := by
  obtain ⟨newL, newR, kl, kr, idx, costs, d1, d2, hm, -, rfl, -⟩ := h.parts
  refine ⟨newL, newR, d1, d2, fun p hp => ?_⟩
  obtain ⟨i, k, a, -, b, -⟩ := mem_candidates.1 (List.mem_filter.1 hp).1
  have hl := List.mem_of_getElem? a
  have hr := List.mem_of_getElem? b
  rcases hm with ⟨-, fl, fr, -, -, -, -, -, rfl, rfl⟩ | ⟨-, -, rfl, rfl⟩
  · exact ⟨(List.mem_filter.1 hl).1, (List.mem_filter.1 hr).1⟩
  · exact ⟨hl, hr⟩

/-- What is known of a mask when a frame is processed. -/
theorem near_of_mask {v : MaskedVision I K} {d : K} (hr : v.Respects d) {roi : Params.Rect} (h0 : roi ≠ noRegion) {m m' : Mask}
    (hi : MaskInv roi m) {i : I} {size : Int × Int} (hs : v.size i = size) (hm : prepareMask roi size m = (.ok (), m'))
    {kps : List (KeyPoint K)} (hd : v.detect i m' = .ok kps) : ∀ kp ∈ kps, Near roi d kp := by
  intro kp hkp
  by_cases hz : v.size i = (0, 0)
  · rw [hr.empty i m' kps hz hd] at hkp
    simp at hkp
  have hsize : (m'.rows, m'.cols) = v.size i := by
    by_cases hsame : (m.rows, m.cols) = size
    · rw [prepare_same (Or.inr hsame)] at hm
      rw [← (Prod.mk.inj hm).2, hsame, hs]
    · rw [prepare_new h0 hsame] at hm
      by_cases hf : Fits roi size
      · rw [if_pos hf] at hm
        rw [← (Prod.mk.inj hm).2, hs]
        unfold regionMask
        simp only [if_neg h0]
      · rw [if_neg hf] at hm
        cases (Prod.mk.inj hm).1
  obtain ⟨row, col, hon, hx, hy⟩ := hr.masked i m' kps hsize hz hd kp hkp
  refine ⟨row, col, ?_, hx, hy⟩
  have hinv : MaskInv roi m' := by
    have := prepare_inv (size := size) hi
    rw [hm] at this
    exact this
  rcases hinv with rfl | ⟨-, h | h⟩
  · simp [Mask.none] at hon
  · rw [h] at hon
    unfold regionMask at hon
    simp only [if_neg h0] at hon
    exact of_decide_eq_true hon
  · rw [h] at hon
    simp [Mask.zeros] at hon

theorem runMasked_at {v : MaskedVision I K} (hv : ∀ m, (v.using m).Sound) (roi : Params.Rect) (cfg : TrackerConfig K)
    (frames : List (I × I)) :
    ∀ (s : MaskedTracker I K) (os : List (Observation K)), Holds s.tracker os → MaskInv roi s.mask →
      ∀ (j : Nat) (f : I × I), frames[j]? = some f → ∃ sj oj, Holds sj.tracker oj ∧ MaskInv roi sj.mask ∧
        (runMasked v roi cfg frames s).1[j]? = some (processMasked v roi cfg f.1 f.2 sj).1 := by
  induction frames with
  | nil => intro s os _ _ j f hf; simp at hf
  | cons g gs ih =>
    intro s os h hi j f hf
    cases j with
    | zero =>
      rw [List.getElem?_cons_zero, Option.some_inj] at hf
      subst hf
      exact ⟨s, os, h, hi, rfl⟩
    | succ j =>
      rw [List.getElem?_cons_succ] at hf
      have key : ∃ os', Holds (processMasked v roi cfg g.1 g.2 s).2.tracker os' ∧
          MaskInv roi (processMasked v roi cfg g.1 g.2 s).2.mask := by
        by_cases hsz : v.size g.1 = v.size g.2
        · have hi' := prepare_inv (size := v.size g.1) hi
          rcases prepare_cases roi (v.size g.1) s.mask with ⟨m, hm⟩ | ⟨m, hm⟩
          · rw [processMasked_ok hsz hm]
            rw [hm] at hi'
            rcases step (hv m) cfg h g.1 g.2 with ⟨-, os', h', -⟩ | ⟨hs, ps, st, s', he, -, -, h'⟩
            · exact ⟨os', h', hi'⟩
            · exact ⟨_, by rw [he]; exact h', hi'⟩
          · rw [processMasked_throws hsz hm]
            rw [hm] at hi'
            refine ⟨os, ⟨h.track, h.increasing, h.below, ?_, h.next, h.nonneg, ?_⟩, hi'⟩
            · have := h.frame
              dsimp only
              omega
            · have := h.frame
              dsimp only
              omega
        · rw [processMasked_sizes hsz]
          exact ⟨os, h, hi⟩
      obtain ⟨os', h', hi'⟩ := key
      exact ih _ os' h' hi' j f hf

/-- **C150.** In every history, also after calls that threw, the features that are new in an output are, in both images, at most `d` away
from the configured region, if the detector finds keypoints at most `d` away from the pixels that its mask allows. -/
theorem C150_new_features (v : MaskedVision I K) (hv : ∀ m, (v.using m).Sound) (d : K) (hr : v.Respects d) (roi : Params.Rect)
    (h0 : roi ≠ noRegion) (cfg : TrackerConfig K) (df : Option (DistanceFilter K)) (frames : List (I × I)) (j : Nat) (t : Track K)
    (st : Stats) (h : (runMasked v roi cfg frames (.init df)).1[j]? = some (.ok (t, st))) :
    (∀ i l, st.trackedMatchCount ≤ i → t.left[i]? = some l → Near roi d l) ∧
    (∀ i r, st.trackedMatchCount ≤ i → t.right[i]? = some r → Near roi d r) := by
  have hj : j < frames.length := by
    rw [← runMasked_length v roi cfg frames (.init df)]; exact (List.getElem?_eq_some_iff.1 h).1
  obtain ⟨s, os, hh, hi, he⟩ := runMasked_at hv roi cfg frames (.init df) [] (holds_init df) (Or.inl rfl) j _
    (List.getElem?_eq_getElem hj)
  rw [he, Option.some_inj] at h
  generalize frames[j] = f at h
  by_cases hsz : v.size f.1 = v.size f.2
  · rcases prepare_cases roi (v.size f.1) s.mask with ⟨m, hm⟩ | ⟨m, hm⟩
    · rw [processMasked_ok hsz hm] at h
      have h : (process (v.using m) cfg f.1 f.2 s.tracker).1 = .ok (t, st) := h
      rcases step (hv m) cfg hh f.1 f.2 with ⟨h1, -⟩ | ⟨hs, ps, st', s', he', hp, -, -⟩
      · rw [h1] at h; cases h
      · rw [he'] at h
        have e := Outcome.ok.inj h
        rw [Prod.mk.injEq] at e
        obtain ⟨rfl, rfl⟩ := e
        obtain ⟨newL, newR, d1, d2, hmem⟩ := new_detected hp
        have n1 := near_of_mask hr h0 hi rfl hm d1
        have n2 := near_of_mask hr h0 hi hsz.symm hm d2
        rw [hp.tracked]
        have hfresh : ∀ o ∈ fresh s.tracker.nextMatchId ps, ∃ p ∈ ps, o.left = p.left ∧ o.right = p.right := by
          intro o ho
          unfold fresh at ho
          obtain ⟨p, hp', rfl⟩ := List.mem_map.1 ho
          exact ⟨p.1, by rw [List.mem_zipIdx_iff_getElem?] at hp'; exact List.mem_of_getElem? hp', rfl, rfl⟩
        constructor
        · intro i l hil hl
          simp only [ofObs, List.getElem?_map, Option.map_eq_some_iff] at hl
          obtain ⟨o, ho, rfl⟩ := hl
          rw [List.getElem?_append_right hil] at ho
          obtain ⟨p, hpm, e1, -⟩ := hfresh o (List.mem_of_getElem? ho)
          rw [e1]
          exact n1 _ (hmem p hpm).1
        · intro i l hil hl
          simp only [ofObs, List.getElem?_map, Option.map_eq_some_iff] at hl
          obtain ⟨o, ho, rfl⟩ := hl
          rw [List.getElem?_append_right hil] at ho
          obtain ⟨p, hpm, -, e1⟩ := hfresh o (List.mem_of_getElem? ho)
          rw [e1]
          exact n2 _ (hmem p hpm).2
    · rw [processMasked_throws hsz hm] at h
      cases h
  · rw [processMasked_sizes hsz] at h
    cases h

/-! ### Regions that do not fit, that are empty, and no region -/

/-- **C150.** A region that does not fit: the call throws when the size of the images is new. After that the mask allows no pixel. -/
theorem C150_does_not_fit (v : MaskedVision I K) (roi : Params.Rect) (h0 : roi ≠ noRegion) (cfg : TrackerConfig K) (left right : I)
    (hsz : v.size left = v.size right) (hf : ¬ Fits roi (v.size left)) (s : MaskedTracker I K)
    (hs : (s.mask.rows, s.mask.cols) ≠ v.size left) :
    (processMasked v roi cfg left right s).1 = .throws ∧
    ∀ row col, (processMasked v roi cfg left right s).2.mask.on row col = false := by
  rw [processMasked_throws hsz (m := .zeros (v.size left)) (by rw [prepare_new h0 hs, if_neg hf])]
  exact ⟨rfl, fun _ _ => rfl⟩

/-- **C150.** If the tracker is used on after such a call, with images of the same size, the region is not checked again: the call
does the same as one with a mask that allows no pixel, so that no feature is ever found, without an exception. -/
theorem C150_after_exception (v : MaskedVision I K) (roi : Params.Rect) (cfg : TrackerConfig K) (left right : I)
    (hsz : v.size left = v.size right) (s : MaskedTracker I K) (hs : s.mask = .zeros (v.size left)) :
    processMasked v roi cfg left right s =
      ((process (v.using (.zeros (v.size left))) cfg left right s.tracker).1,
        ⟨(process (v.using (.zeros (v.size left))) cfg left right s.tracker).2, .zeros (v.size left)⟩) := by
  have : prepareMask roi (v.size left) s.mask = (.ok (), s.mask) := prepare_same (Or.inr (by rw [hs]; rfl))
  rw [processMasked_ok hsz this, hs]

/-- **C150.** With no region the detector is given no mask, in every history: the mask that is enabled with all numbers 0 is none. -/
theorem C150_no_region (v : MaskedVision I K) (cfg : TrackerConfig K) (df : Option (DistanceFilter K)) (frames : List (I × I)) :
    (runMasked v noRegion cfg frames (.init df)).1 = (run (v.using .none) cfg frames (.init df)).1 := by
  rw [C150_region v noRegion cfg df frames (fun _ _ _ => Or.inl rfl)]
  rfl

/-- **C150.** A region without height or width that is not at the corner is a region: no new feature is ever found. -/
theorem C150_degenerate (v : MaskedVision I K) (hv : ∀ m, (v.using m).Sound) (d : K) (hr : v.Respects d) (roi : Params.Rect)
    (h0 : roi ≠ noRegion) (hd : roi.width ≤ 0 ∨ roi.height ≤ 0) (cfg : TrackerConfig K) (df : Option (DistanceFilter K))
    (frames : List (I × I)) (j : Nat) (t : Track K) (st : Stats)
    (h : (runMasked v roi cfg frames (.init df)).1[j]? = some (.ok (t, st))) : t.left.length ≤ st.trackedMatchCount := by
  by_contra hc
  push Not at hc
  obtain ⟨row, col, ⟨h1, h2, h3, h4⟩, -⟩ := (C150_new_features v hv d hr roi h0 cfg df frames j t st h).1 st.trackedMatchCount
    t.left[st.trackedMatchCount] (le_refl _) (List.getElem?_eq_getElem hc)
  omega

/-! ### A concrete case -/

/-- Images of 4 by 6 pixels, or of 2 by 2; a keypoint is found on every pixel of the first row below the first that the mask allows
(the mask is ignored if it is empty). -/
def rowVision : MaskedVision Bool ℚ where
  size i := if i then (4, 6) else (2, 2)
  detect i m := .ok ((List.range (if i then 6 else 2)).filterMap fun c =>
    if m.on 1 c = true ∨ (m.rows = 0 ∧ m.cols = 0) then some ⟨c, 1, 1, 0, 0, 0, 0⟩ else none)
  flow _ _ ps := .ok (ps.map fun p => (1, p.1, p.2))
  indices l r _ _ := .ok (l.map fun _ => if r.length > 0 then 0 else -1, l.map fun _ => 3)

theorem rowVision_sound (m : Mask) : (rowVision.using m).Sound where
  detect i := by simp [rowVision, MaskedVision.using]
  flow i j ps := by simp [rowVision, MaskedVision.using]
  flowLength i j ps rs h := by rw [← Outcome.ok.inj h]; simp
  indices l r i j := by simp [rowVision, MaskedVision.using]
  indicesLength l r i j idx costs h := by
    have := Outcome.ok.inj h
    rw [Prod.mk.injEq] at this
    rw [← this.1, ← this.2]
    simp
  indicesRange l r i j idx costs h := by
    have := Outcome.ok.inj h
    rw [Prod.mk.injEq] at this
    rw [← this.1]
    intro k hk
    rw [List.mem_map] at hk
    obtain ⟨a, -, rfl⟩ := hk
    by_cases hr : r.length > 0
    · exact Or.inr ⟨0, by simp [hr], hr⟩
    · exact Or.inl (by simp [hr])

theorem rowVision_respects : rowVision.Respects 0 where
  masked i m kps hs hz h kp hkp := by
    have e := Outcome.ok.inj h
    rw [← e, List.mem_filterMap] at hkp
    obtain ⟨c, -, hc⟩ := hkp
    by_cases hon : m.on 1 c = true
    · rw [if_pos (Or.inl hon)] at hc
      rw [← Option.some_inj.1 hc]
      exact ⟨1, c, hon, by simp, by simp⟩
    · rw [if_neg] at hc
      · cases hc
      · rintro (h1 | ⟨h1, h2⟩)
        · exact hon h1
        · rw [h1, h2] at hs
          exact hz hs.symm
  empty i m kps hz h := by
    exfalso
    have : (if i = true then ((4 : Int), (6 : Int)) else (2, 2)) = (0, 0) := hz
    cases i <;> simp at this

/-- Two columns of the second row. -/
def smallRegion : Params.Rect := ⟨2, 1, 2, 1⟩

/-- The hypotheses of `C150_region` and `C150_new_features` are met, and features are found: two at first; without a region six. -/
example : (∀ f ∈ [(true, true), (true, true)], rowVision.size f.1 = rowVision.size f.2 →
      smallRegion = noRegion ∨ Fits smallRegion (rowVision.size f.1)) ∧
    ((runMasked rowVision smallRegion ⟨1, 1, 5⟩ [(true, true), (true, true)] (.init none)).1.map fun o =>
      o >>= fun r => Outcome.ok (r.1.left.map (·.x), r.2.newMatchCount)) = [.ok ([2, 3], 2), .ok ([3], 0)] ∧
    ((runMasked rowVision noRegion ⟨1, 1, 5⟩ [(true, true)] (.init none)).1.map fun o =>
      o >>= fun r => Outcome.ok (r.1.left.map (·.x))) = [.ok [0, 1, 2, 3, 4, 5]] := by
  decide +kernel

/-- A smaller image into which the region does not fit ends the node. Used on, the tracker processes the next image of this size, and
finds nothing. -/
example : ((runMasked rowVision smallRegion ⟨1, 1, 5⟩ [(true, true), (false, false), (false, false)] (.init none)).1.map fun o =>
      o >>= fun r => Outcome.ok (r.2.newMatchCount)) = [.ok 2, .throws, .ok 0] := by
  decide +kernel

end Stereo

namespace Params

/-! ### The data sets -/

theorem int_set_other {p : Server} {k k' : String} {v : Value} (h : k' ≠ k) (d : Int) : (p.set k v).int k' d = p.int k' d := by
  unfold Server.int Server.set
  rw [if_neg h]

theorem roi_threads (p : Server) (v : Value) : roiParams (p.set "threads" v) = roiParams p := by
  unfold roiParams
  rw [bool_set_other (by decide), int_set_other (by decide), int_set_other (by decide), int_set_other (by decide),
    int_set_other (by decide)]

/-- The regions of all missions. -/
def regionsChecked : Bool :=
  (snowboard.missions.all fun m => decide (roiParams (snowboard.server m.2 1) = ⟨0, 360, 1577, 316⟩)) &&
  (ue4.missions.all fun m => decide (roiParams (ue4.server m.2 1) = ⟨0, 360, 720, 360⟩)) &&
  (simulator.missions.all fun m => decide (roiParams (simulator.server m.2 1) = Stereo.noRegion))

theorem regions_checked : regionsChecked = true := by decide +kernel

/-- The images of a data set that are large enough for its region. -/
def DataSet.largeEnough (d : DataSet) (size : Int × Int) : Prop :=
  (d.name = "snowboard" → 676 ≤ size.1 ∧ 1577 ≤ size.2) ∧ (d.name = "ue4_missions" → 720 ≤ size.1 ∧ 720 ≤ size.2)

/-- **C150.** In every mission of every data set the region fits exactly into the images that are large enough: at least 1577 by 676
pixels for snowboard and 720 by 720 for ue4_missions; simulator_prcp_missions has no region. -/
theorem C150_data_sets (d : DataSet) (hd : d ∈ dataSets) (m : String × List (String × Value)) (hm : m ∈ d.missions) (cv : OpenCv)
    (n : Int) (t : StereoTracking) (k : Nat) (h : stereoProcess cv (d.server m.2 n) = .ok (t, k)) (size : Int × Int) :
    (t.roi = Stereo.noRegion ∨ Stereo.Fits t.roi size) ↔ d.largeEnough size := by
  have hr : t.roi = roiParams (d.server m.2 1) := by
    unfold stereoProcess at h
    obtain ⟨t', h1, h2⟩ := bind_eq_ok h
    obtain ⟨k', -, h3⟩ := bind_eq_ok h2
    have e := (Prod.mk.inj (Outcome.ok.inj h3)).1
    subst e
    unfold stereo at h1
    obtain ⟨a, -, h1⟩ := bind_eq_ok h1
    obtain ⟨b, -, h1⟩ := bind_eq_ok h1
    obtain ⟨c, -, h1⟩ := bind_eq_ok h1
    rw [← Outcome.ok.inj h1]
    show roiParams (d.server m.2 n) = roiParams (d.server m.2 1)
    unfold DataSet.server
    rw [roi_threads, roi_threads]
  have hc := regions_checked
  unfold regionsChecked at hc
  rw [Bool.and_eq_true, Bool.and_eq_true, List.all_eq_true, List.all_eq_true, List.all_eq_true] at hc
  rw [hr]
  simp only [dataSets, List.mem_cons, List.not_mem_nil, or_false] at hd
  unfold DataSet.largeEnough Stereo.Fits
  rcases hd with rfl | rfl | rfl
  · rw [of_decide_eq_true (hc.1.1 m hm)]
    simp [snowboard, Stereo.noRegion]
    omega
  · rw [of_decide_eq_true (hc.1.2 m hm)]
    simp [ue4, Stereo.noRegion]
    omega
  · rw [of_decide_eq_true (hc.2 m hm)]
    simp [simulator, Stereo.noRegion]

end Params

end Serpent
