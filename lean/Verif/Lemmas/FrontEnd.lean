import Verif.Lemmas.FrontEndMove

/-!
# Invariants of the front end
-/

namespace Serpent

namespace FrontEnd

open Utils

variable {A K : Type} [Field K]

/-! ### Pointclouds and states -/

/-- State `i` lies between the starts of pointclouds `i` and `i + 1`. -/
def Placed (clouds : List Cloud) (states : List Int) : Prop :=
  ∀ i t, states[i]? = some t →
    ∃ c d, clouds[i]? = some c ∧ clouds[i + 1]? = some d ∧ c.start ≤ t ∧ t < d.start

/-- What is known of the running pointcloud callback. -/
def PhaseOk (clouds : List Cloud) (states : List Int) (prevCloud : Option Cloud) (prevState : Int) (initialised : Bool) :
    Phase → Prop
  | .idle => prevCloud = clouds.getLast? ∧ states.length = clouds.length - 1 ∧
      states.getLast? = if initialised then some prevState else none
  | .select msg => ∃ cs prev, prevCloud = some prev ∧ clouds = cs ++ [prev, msg] ∧ states.length = cs.length ∧
      states.getLast? = if initialised then some prevState else none
  | .imu msg t => ∃ cs prev, prevCloud = some prev ∧ clouds = cs ++ [prev, msg] ∧ states.length = cs.length ∧
      (states.getLast? = if initialised then some prevState else none) ∧ prev.start ≤ t ∧ t < msg.start ∧ t % 1000 = 0
  | .init msg t => ∃ cs prev, prevCloud = some prev ∧ clouds = cs ++ [prev, msg] ∧ states.length = cs.length ∧
      states = [] ∧ initialised = false ∧ prev.start ≤ t ∧ t < msg.start ∧ t % 1000 = 0
  | .bias msg t | .deskew msg t | .baro msg t => ∃ cs prev, prevCloud = some prev ∧ clouds = cs ++ [prev, msg] ∧
      states.length = cs.length + 1 ∧
      (if initialised then ∃ ss, states = ss ++ [prevState, t] else states = [t] ∧ prevState = t)

/-- Invariant of pointclouds and states. -/
structure CInv (clouds : List Cloud) (states : List Int) (prevCloud : Option Cloud) (prevState : Int)
    (initialised : Bool) (stereo : List Int) (phase : Phase) : Prop where
  mono : clouds.Pairwise (fun a b => a.start < b.start)
  pos : ∀ c ∈ clouds, 0 < c.start
  placed : Placed clouds states
  whole : ∀ t ∈ states, t % 1000 = 0
  stereoWhole : ∀ t ∈ stereo, t % 1000 = 0
  phaseOk : PhaseOk clouds states prevCloud prevState initialised phase

theorem getElem?_append_some {α : Type} {l l' : List α} {i : Nat} {x : α} (h : l[i]? = some x) :
    (l ++ l')[i]? = some x := by
  obtain ⟨hi, h⟩ := List.getElem?_eq_some_iff.1 h
  rw [List.getElem?_append_left hi, List.getElem?_eq_getElem hi, h]

theorem Placed.clouds {clouds : List Cloud} {states : List Int} (h : Placed clouds states) (more : List Cloud) :
    Placed (clouds ++ more) states := by
  intro i t ht
  obtain ⟨c, d, h1, h2, h3⟩ := h i t ht
  exact ⟨c, d, getElem?_append_some h1, getElem?_append_some h2, h3⟩

theorem Placed.state {cs : List Cloud} {prev msg : Cloud} {states : List Int}
    (h : Placed (cs ++ [prev, msg]) states) (hl : states.length = cs.length) (t : Int) (h1 : prev.start ≤ t)
    (h2 : t < msg.start) : Placed (cs ++ [prev, msg]) (states ++ [t]) := by
  intro i u hu
  rw [List.getElem?_append] at hu
  split at hu
  · exact h i u hu
  · rename_i hi
    have : i = states.length := by
      by_contra hne
      have : ([t] : List Int)[i - states.length]? = none := by
        rw [List.getElem?_eq_none_iff]; simp; omega
      rw [this] at hu; simp at hu
    subst this
    have hu : t = u := by simpa using hu
    subst hu
    exact ⟨prev, msg, by rw [hl]; simp, by rw [hl]; simp, h1, h2⟩

theorem Cloud.start_whole (c : Cloud) : c.start % 1000 = 0 := by
  unfold Cloud.start; omega

/-- The projection on which `CInv` depends. -/
abbrev CI (s : FE A K) : Prop :=
  CInv s.ghost.clouds s.ghost.states s.prevCloud s.prevState s.initialised s.stereoBuffer s.phase

omit [Field K] in
theorem CI.append_state {s : FE A K} (h : CI s) {cs : List Cloud} {prev msg : Cloud}
    (h1 : s.ghost.clouds = cs ++ [prev, msg]) (h2 : s.ghost.states.length = cs.length) (t : Int) (h3 : prev.start ≤ t)
    (h4 : t < msg.start) (h5 : t % 1000 = 0) :
    Placed s.ghost.clouds (s.ghost.states ++ [t]) ∧ ∀ u ∈ s.ghost.states ++ [t], u % 1000 = 0 := by
  constructor
  · have := h.placed
    rw [h1] at this ⊢
    exact this.state h2 t h3 h4
  · intro u hu
    rcases List.mem_append.1 hu with hu | hu
    · exact h.whole u hu
    · have : u = t := by simpa using hu
      subst this; exact h5

theorem ci_move (cfg : Cfg A K) (s s' : FE A K) (h : CI s) (hm : Move cfg s s') : CI s' := by
  cases hm with
  | imuQuiet m _ _ _ _ => exact h
  | imuOdometry m p _ _ _ _ => exact h
  | optimisedA t m _ _ _ _ => exact h
  | optimisedB p last _ _ => exact h
  | barometer p _ _ ht =>
    obtain ⟨bb, bt, ps, rfl, _⟩ := ht.frame
    exact h
  | stereoQuiet t _ _ =>
    refine ⟨h.mono, h.pos, h.placed, h.whole, ?_, h.phaseOk⟩
    intro u hu
    rcases List.mem_append.1 hu with hu | hu
    · exact h.stereoWhole u hu
    · have : u = t / 1000 * 1000 := by simpa using hu
      omega
  | stereoSent t _ _ =>
    refine ⟨h.mono, h.pos, h.placed, h.whole, ?_, h.phaseOk⟩
    intro u hu
    rcases List.mem_append.1 hu with hu | hu
    · exact h.stereoWhole u hu
    · have : u = t / 1000 * 1000 := by simpa using hu
      omega
  | cloudFirst msg hp hc h0 hlt =>
    have hpo := h.phaseOk
    rw [hp] at hpo
    obtain ⟨h1, h2, h3⟩ := hpo
    rw [hc] at h1
    have hcl : s.ghost.clouds = [] := List.getLast?_eq_none_iff.1 h1.symm
    have hst : s.ghost.states = [] := by rw [hcl] at h2; exact List.length_eq_zero_iff.1 h2
    refine ⟨?_, ?_, ?_, h.whole, h.stereoWhole, ?_⟩
    · simp [hcl]
    · simp [hcl, h0]
    · simp only [hst]; intro i t ht; simp at ht
    · simp only [hp]
      exact ⟨by simp [hcl], by simp [hcl, hst], h3⟩
  | cloudNext msg prev hp hc h0 hlt =>
    have hpo := h.phaseOk
    rw [hp] at hpo
    obtain ⟨h1, h2, h3⟩ := hpo
    rw [hc] at h1
    obtain ⟨cs, hcs⟩ : ∃ cs, s.ghost.clouds = cs ++ [prev] := by
      rw [eq_comm, List.getLast?_eq_some_iff] at h1
      exact h1
    refine ⟨?_, ?_, h.placed.clouds _, h.whole, h.stereoWhole, ?_⟩
    · exact List.pairwise_append.2 ⟨h.mono, by simp, fun a ha b hb => by
        have : b = msg := by simpa using hb
        subst this; exact hlt a ha⟩
    · intro c hc
      rcases List.mem_append.1 hc with hc | hc
      · exact h.pos c hc
      · have : c = msg := by simpa using hc
        subst this; exact h0
    · exact ⟨cs, prev, hc, by simp [hcs], by rw [h2, hcs]; simp, h3⟩
  | selectWait msg prev hp hc _ _ =>
    exact ⟨h.mono, h.pos, h.placed, h.whole, by simp, h.phaseOk⟩
  | selectFrame msg prev f rest hp hc _ hf hr hle hlt _ =>
    have hpo := h.phaseOk
    rw [hp] at hpo
    obtain ⟨cs, prev', h1, h2, h3, h4⟩ := hpo
    rw [hc] at h1
    obtain rfl := Option.some.inj h1
    have : CI { s with stereoBuffer := rest, phase := .imu msg f } :=
      ⟨h.mono, h.pos, h.placed, h.whole, fun t ht => h.stereoWhole t (hr t ht),
        ⟨cs, prev, hc, h2, h3, h4, hle, hlt, h.stereoWhole f hf⟩⟩
    split
    · exact this
    · exact this
  | selectStart msg prev l hp hc hl _ =>
    have hpo := h.phaseOk
    rw [hp] at hpo
    obtain ⟨cs, prev', h1, h2, h3, h4⟩ := hpo
    rw [hc] at h1
    obtain rfl := Option.some.inj h1
    refine ⟨h.mono, h.pos, h.placed, h.whole, fun t ht => h.stereoWhole t (hl t ht),
        ⟨cs, prev, hc, h2, h3, h4, le_refl _, ?_, prev.start_whole⟩⟩
    have := h.mono
    rw [h2] at this
    have := (List.pairwise_append.1 this).2.1
    simpa using this
  | s2s msg prev t first others m ms hp hc hi hb hle hsel =>
    have hpo := h.phaseOk
    rw [hp] at hpo
    obtain ⟨cs, prev', h1, h2, h3, h4, h5, h6, h7⟩ := hpo
    have ha := h.append_state h2 h3 t h5 h6 h7
    refine ⟨h.mono, h.pos, ha.1, ha.2, h.stereoWhole, ⟨cs, prev', h1, h2, by simp [FE.emit, h3], ?_⟩⟩
    simp only [FE.emit, hi, if_true]
    rw [hi, if_pos rfl, List.getLast?_eq_some_iff] at h4
    obtain ⟨ss, h4⟩ := h4
    exact ⟨ss, by rw [h4]; simp⟩
  | initWait msg prev t hp hc hi hwt =>
    have hpo := h.phaseOk
    rw [hp] at hpo
    obtain ⟨cs, prev', h1, h2, h3, h4, h5, h6, h7⟩ := hpo
    rw [hi, if_neg (by simp), List.getLast?_eq_none_iff] at h4
    exact ⟨h.mono, h.pos, h.placed, h.whole, h.stereoWhole, ⟨cs, prev', h1, h2, h3, h4, hi, h5, h6, h7⟩⟩
  | initial msg prev t m hp hc hint =>
    have hpo := h.phaseOk
    rw [hp] at hpo
    obtain ⟨cs, prev', h1, h2, h3, h4, hi, h5, h6, h7⟩ := hpo
    have ha := h.append_state h2 h3 t h5 h6 h7
    refine ⟨h.mono, h.pos, ha.1, ha.2, h.stereoWhole, ⟨cs, prev', h1, h2, by simp [FE.emit, h3], ?_⟩⟩
    simp only [FE.emit, hi]
    rw [h4]
    simp
  | biasKnown msg prev t hp hc _ _ _ =>
    have hpo := h.phaseOk
    rw [hp] at hpo
    exact ⟨h.mono, h.pos, h.placed, h.whole, h.stereoWhole, hpo⟩
  | deskew msg prev t hp hc =>
    have hpo := h.phaseOk
    rw [hp] at hpo
    exact ⟨h.mono, h.pos, h.placed, h.whole, h.stereoWhole, hpo⟩
  | finishBaro msg prev t hp hc _ ht =>
    obtain ⟨bb, bt, ps, rfl, _⟩ := ht.frame
    have hpo := h.phaseOk
    rw [hp] at hpo
    obtain ⟨cs, prev', h1, h2, h3, h4⟩ := hpo
    refine ⟨h.mono, h.pos, h.placed, h.whole, h.stereoWhole, ⟨by simp [h2], by simp [h2, h3], ?_⟩⟩
    simp only [if_true]
    split at h4
    · obtain ⟨ss, h4⟩ := h4
      rw [h4]; simp
    · rw [h4.1]; simp
  | finish msg prev t hp hc _ =>
    have hpo := h.phaseOk
    rw [hp] at hpo
    obtain ⟨cs, prev', h1, h2, h3, h4⟩ := hpo
    refine ⟨h.mono, h.pos, h.placed, h.whole, h.stereoWhole, ⟨by simp [h2], by simp [h2, h3], ?_⟩⟩
    simp only [if_true]
    split at h4
    · obtain ⟨ss, h4⟩ := h4
      rw [h4]; simp
    · rw [h4.1]; simp

theorem ci (cfg : Cfg A K) (s : FE A K) (hr : Reach cfg s) : CI s :=
  Reach.induct (P := fun s => CI s)
    ⟨by simp, by simp, by intro i t ht; simp at ht, by simp, by simp, by exact ⟨rfl, rfl, rfl⟩⟩
    (fun s s' _ h hm => ci_move cfg s s' h hm) hr

/-- States are strictly increasing. -/
theorem Placed.increasing {clouds : List Cloud} {states : List Int} (h : Placed clouds states)
    (hm : clouds.Pairwise (fun a b => a.start < b.start)) : states.Pairwise (· < ·) := by
  rw [List.pairwise_iff_getElem]
  intro i j hi hj hij
  obtain ⟨c, d, _, h2, _, h4⟩ := h i _ (List.getElem?_eq_getElem hi)
  obtain ⟨c', d', h1', _, h3', _⟩ := h j _ (List.getElem?_eq_getElem hj)
  obtain ⟨k2, h2⟩ := List.getElem?_eq_some_iff.1 h2
  obtain ⟨k1, h1'⟩ := List.getElem?_eq_some_iff.1 h1'
  have : d.start ≤ c'.start := by
    rw [← h2, ← h1']
    rcases Nat.lt_or_ge (i + 1) j with hlt | hge
    · exact le_of_lt (List.pairwise_iff_getElem.1 hm _ _ k2 k1 hlt)
    · have : i + 1 = j := by omega
      subst this; exact le_refl _
  omega

omit [Field K] in
theorem CI.increasing {s : FE A K} (h : CI s) : s.ghost.states.Pairwise (· < ·) := h.placed.increasing h.mono

omit [Field K] in
theorem CI.states_pos {s : FE A K} (h : CI s) (t : Int) (ht : t ∈ s.ghost.states) : 0 < t := by
  obtain ⟨i, hi, rfl⟩ := List.getElem_of_mem ht
  obtain ⟨c, d, h1, _, h3, _⟩ := h.placed i _ (List.getElem?_eq_getElem hi)
  have := h.pos c (List.mem_of_getElem? h1)
  omega

end FrontEnd

end Serpent
