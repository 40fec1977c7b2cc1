import Verif.Lemmas.FrontEndImu

/-!
# Invariants of the messages sent by the front end
-/

namespace Serpent

namespace FrontEnd

open Utils

variable {A K : Type} [Field K]

/-- States whose deskewed pointcloud was sent. -/
def deskewed (states : List Int) : Phase → List Int
  | .bias _ _ | .deskew _ _ => states.dropLast
  | _ => states

/-- State time selected but not sent yet. -/
def pending : Phase → List Int
  | .imu _ t | .init _ t => [t]
  | _ => []

structure PInv (graphOnly : Bool) (pubs : List (Pub A K)) (imu : List (Stamped A)) (states : List Int) (phase : Phase) :
    Prop where
  sent : pubs.filterMap stateOf = states
  intervals : pubs.filterMap intervalOf = states.zip states.tail
  covers : ∀ a b ms, Pub.imuS2s a b ms ∈ pubs → ∃ received, received <+: imu ∧ Covers received a b ms
  clouds : pubs.filterMap cloudTimeOf = deskewed states phase
  stereo : graphOnly = true → (pubs.filterMap stereoTimeOf).Sublist (states ++ pending phase)

abbrev PI (cfg : Cfg A K) (s : FE A K) : Prop :=
  PInv cfg.onlyGraphFrames s.pubs s.ghost.imu s.ghost.states s.phase

omit [Field K] in
/-- A message that concerns none of these. -/
theorem PInv.silent {g : Bool} {pubs : List (Pub A K)} {imu : List (Stamped A)} {states : List Int} {phase : Phase}
    (h : PInv g pubs imu states phase) (p : Pub A K) (h1 : stateOf p = none) (h2 : intervalOf p = none)
    (h3 : cloudTimeOf p = none) (h4 : g = true → stereoTimeOf p = none) : PInv g (pubs ++ [p]) imu states phase := by
  refine ⟨?_, ?_, ?_, ?_, ?_⟩
  · simp [h1, h.sent]
  · simp [h2, h.intervals]
  · intro a b ms hm
    rcases List.mem_append.1 hm with hm | hm
    · exact h.covers a b ms hm
    · have : Pub.imuS2s a b ms = p := by simpa using hm
      subst this; simp [stateOf] at h1
  · simp [h3, h.clouds]
  · intro hg
    simpa [h4 hg] using h.stereo hg

omit [Field K] in
theorem PInv.silents {g : Bool} {pubs : List (Pub A K)} {imu : List (Stamped A)} {states : List Int} {phase : Phase}
    (h : PInv g pubs imu states phase) {ps : List (Pub A K)} (hp : ps = [] ∨ ∃ p, ps = [.barometer p]) :
    PInv g (pubs ++ ps) imu states phase := by
  rcases hp with rfl | ⟨p, rfl⟩
  · simpa using h
  · exact h.silent _ rfl rfl rfl (fun _ => rfl)

omit [Field K] in
theorem PInv.imu {g : Bool} {pubs : List (Pub A K)} {imu : List (Stamped A)} {states : List Int} {phase : Phase}
    (h : PInv g pubs imu states phase) (m : Stamped A) : PInv g pubs (imu ++ [m]) states phase :=
  { h with
    covers := fun a b ms hm =>
      let ⟨r, h1, h2⟩ := h.covers a b ms hm
      ⟨r, h1.trans (List.prefix_append _ _), h2⟩ }

theorem zip_tail_append {α : Type} (ss : List α) (p t : α) :
    (ss ++ [p] ++ [t]).zip (ss ++ [p] ++ [t]).tail = (ss ++ [p]).zip (ss ++ [p]).tail ++ [(p, t)] := by
  induction ss with
  | nil => rfl
  | cons x rest ih =>
    cases rest with
    | nil => rfl
    | cons y ys =>
      simp only [List.cons_append, List.tail_cons, List.zip_cons_cons] at ih ⊢
      rw [ih]

theorem pi_move (cfg : Cfg A K) (s s' : FE A K) (hc : CI s) (hi : II s) (h : PI cfg s) (hm : Move cfg s s') : PI cfg s' := by
  cases hm with
  | imuQuiet m _ _ _ _ => exact h.imu m
  | imuOdometry m p _ _ _ _ => exact (h.imu m).silent _ rfl rfl rfl (fun _ => rfl)
  | optimisedA t m _ _ _ _ => exact h
  | optimisedB p last _ _ => exact h
  | barometer p _ _ ht =>
    obtain ⟨bb, bt, ps, rfl, hp⟩ := ht.frame
    exact h.silents hp
  | stereoQuiet t _ _ => exact h
  | stereoSent t _ ho => exact h.silent _ rfl rfl rfl (fun hg => by rw [ho] at hg; simp at hg)
  | cloudFirst msg hp hc' h0 hlt => exact h
  | cloudNext msg prev hp hc' h0 hlt =>
    have h' : PInv cfg.onlyGraphFrames s.pubs s.ghost.imu s.ghost.states .idle := hp ▸ h
    exact { h' with }
  | selectWait msg prev hp hc' _ _ => exact h
  | selectFrame msg prev f rest hp hc' _ hf hr hle hlt _ =>
    have h' : PInv cfg.onlyGraphFrames s.pubs s.ghost.imu s.ghost.states (.select msg) := hp ▸ h
    split
    · rename_i hg
      refine ⟨by simpa [FE.emit, List.filterMap_cons, stateOf] using h'.sent,
        by simpa [FE.emit, List.filterMap_cons, intervalOf] using h'.intervals, ?_,
        by simpa [FE.emit, List.filterMap_cons, cloudTimeOf, deskewed] using h'.clouds, ?_⟩
      · intro a b ms hm
        rcases List.mem_append.1 hm with hm | hm
        · exact h'.covers a b ms hm
        · simp at hm
      · intro _
        have := h'.stereo hg
        simp only [pending, List.append_nil] at this
        simp only [FE.emit, pending, List.filterMap_append]
        exact this.append (List.Sublist.refl _)
    · rename_i hg
      exact { h' with stereo := fun hg' => absurd hg' hg }
  | selectStart msg prev l hp hc' hl _ =>
    have h' : PInv cfg.onlyGraphFrames s.pubs s.ghost.imu s.ghost.states (.select msg) := hp ▸ h
    refine { h' with stereo := fun hg => ?_ }
    have := h'.stereo hg
    simp only [pending, List.append_nil] at this
    exact this.trans (List.sublist_append_left _ _)
  | s2s msg prev t first others m ms hp hc' hin hb hle hsel =>
    have h' : PInv cfg.onlyGraphFrames s.pubs s.ghost.imu s.ghost.states (.imu msg t) := hp ▸ h
    have hso : StrictlyOrdered s.imuBuffer := hi.ordered.sublist hi.suffix.sublist
    have hpo := hc.phaseOk
    rw [hp] at hpo
    obtain ⟨cs, prev', h1, h2, h3, h4, h5, h6, h7⟩ := hpo
    rw [hin, if_pos rfl, List.getLast?_eq_some_iff] at h4
    obtain ⟨ss, h4⟩ := h4
    have hinc : s.prevState < t := by
      have := (hc.append_state h2 h3 t h5 h6 h7).1.increasing hc.mono
      rw [h4] at this
      exact (List.pairwise_append.1 this).2.2 s.prevState (by simp) t (by simp)
    refine ⟨?_, ?_, ?_, ?_, ?_⟩
    · simp [FE.emit, stateOf, h'.sent]
    · simp only [FE.emit, List.filterMap_append, h'.intervals]
      rw [h4, zip_tail_append]
      rfl
    · intro a b l hm
      rcases List.mem_append.1 hm with hm | hm
      · exact h'.covers a b l hm
      · have e : Pub.imuS2s (K := K) a b l = .imuS2s s.prevState t (m :: ms) := by simpa using hm
        obtain ⟨rfl, rfl, rfl⟩ : a = s.prevState ∧ b = t ∧ l = m :: ms := by simpa using e
        refine ⟨s.ghost.imu, List.prefix_refl _, ?_⟩
        rcases selectImu_cases s.prevState _ hinc s.imuBuffer (hso.imp (fun h => le_of_lt h)) first others hb hle with
          ⟨hu, _⟩ | ⟨before, f, after, e1, e2, e3, e4, e5⟩
        · rw [hu] at hsel; simp at hsel
        · rw [e5] at hsel
          obtain ⟨pre, hpre⟩ := hi.suffix
          exact ⟨pre ++ before, f, after, by rw [← hpre, e1]; simp, e3, e4, (Outcome.ok.inj hsel).symm⟩
    · simpa [FE.emit, List.filterMap_cons, cloudTimeOf, deskewed] using h'.clouds
    · intro hg
      simpa [FE.emit, List.filterMap_cons, stereoTimeOf, pending] using h'.stereo hg
  | initWait msg prev t hp hc' hin hwt =>
    have h' : PInv cfg.onlyGraphFrames s.pubs s.ghost.imu s.ghost.states (.imu msg t) := hp ▸ h
    exact { h' with }
  | initial msg prev t m hp hc' hint =>
    have h' : PInv cfg.onlyGraphFrames s.pubs s.ghost.imu s.ghost.states (.init msg t) := hp ▸ h
    have hpo := hc.phaseOk
    rw [hp] at hpo
    obtain ⟨cs, prev', h1, h2, h3, h4, hin, h5, h6, h7⟩ := hpo
    refine ⟨?_, ?_, ?_, ?_, ?_⟩
    · simp [FE.emit, stateOf, h'.sent]
    · simp only [FE.emit, List.filterMap_append, h'.intervals, h4]
      rfl
    · intro a b l hm
      rcases List.mem_append.1 hm with hm | hm
      · exact h'.covers a b l hm
      · simp at hm
    · simpa [FE.emit, List.filterMap_cons, cloudTimeOf, deskewed] using h'.clouds
    · intro hg
      simpa [FE.emit, List.filterMap_cons, stereoTimeOf, pending] using h'.stereo hg
  | biasKnown msg prev t hp hc' _ _ _ =>
    have h' : PInv cfg.onlyGraphFrames s.pubs s.ghost.imu s.ghost.states (.bias msg t) := hp ▸ h
    exact { h' with }
  | deskew msg prev t hp hc' =>
    have h' : PInv cfg.onlyGraphFrames s.pubs s.ghost.imu s.ghost.states (.deskew msg t) := hp ▸ h
    have hpo := hc.phaseOk
    rw [hp] at hpo
    obtain ⟨cs, prev', h1, h2, h3, h4⟩ := hpo
    obtain ⟨ss, hss⟩ : ∃ ss, s.ghost.states = ss ++ [t] := by
      split at h4
      · obtain ⟨ss, h4⟩ := h4
        exact ⟨ss ++ [s.prevState], by rw [h4]; simp⟩
      · exact ⟨[], h4.1⟩
    have ht : t % 1000 = 0 := hc.whole t (by rw [hss]; simp)
    refine ⟨by simpa [FE.emit, List.filterMap_cons, stateOf] using h'.sent,
        by simpa [FE.emit, List.filterMap_cons, intervalOf] using h'.intervals, ?_, ?_, ?_⟩
    · intro a b ms hm
      rcases List.mem_append.1 hm with hm | hm
      · exact h'.covers a b ms hm
      · simp at hm
    · have := h'.clouds
      simp only [deskewed] at this
      simp only [FE.emit, List.filterMap_append, this, deskewed]
      have e : t / 1000 * 1000 = t := by omega
      simp [cloudTimeOf, e, hss]
    · intro hg
      simpa [FE.emit, List.filterMap_cons, stereoTimeOf, pending] using h'.stereo hg
  | finishBaro msg prev t hp hc' _ ht =>
    obtain ⟨bb, bt, ps, rfl, hps⟩ := ht.frame
    have h' : PInv cfg.onlyGraphFrames s.pubs s.ghost.imu s.ghost.states (.baro msg t) := hp ▸ h
    have h'' := h'.silents hps
    exact { h'' with }
  | finish msg prev t hp hc' _ =>
    have h' : PInv cfg.onlyGraphFrames s.pubs s.ghost.imu s.ghost.states (.baro msg t) := hp ▸ h
    exact { h' with }

theorem pi (cfg : Cfg A K) (s : FE A K) (hr : Reach cfg s) : PI cfg s := by
  refine Reach.induct (P := fun s => PI cfg s) ?_
    (fun s s' hr h hm => pi_move cfg s s' (ci cfg s hr) (ii cfg s hr) h hm) hr
  exact ⟨rfl, rfl, by simp, rfl, by simp⟩

end FrontEnd

end Serpent
