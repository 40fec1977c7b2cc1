import Verif.Props.FrontEndDeskew

/-!
# C78: which stereo frame becomes a state
-/

namespace Serpent

namespace FrontEnd

open Utils

variable {A K : Type} [Field K]

/-- The start of the sweep before which every frame that left the buffer was taken. -/
def Gone (prevCloud : Option Cloud) (old : List Int) : Phase → Prop
  | .idle | .select _ => match prevCloud with
    | none => old = []
    | some prev => ∀ x ∈ old, x < prev.start
  | .imu msg _ | .init msg _ | .bias msg _ | .deskew msg _ | .baro msg _ => ∀ x ∈ old, x < msg.start

/-- The buffered frames are the last ones received; the others are too old for the sweep that is processed. -/
structure SInv (stereo buffer : List Int) (prevCloud : Option Cloud) (phase : Phase) : Prop where
  gone : ∃ old, stereo = old ++ buffer ∧ Gone prevCloud old phase

abbrev SI (s : FE A K) : Prop := SInv s.ghost.stereo s.stereoBuffer s.prevCloud s.phase

theorem si_move (cfg : Cfg A K) (s s' : FE A K) (hci : CI s) (h : SI s) (hm : Move cfg s s') : SI s' := by
  obtain ⟨old, he, hg⟩ := h.gone
  have hsel : ∀ msg prev, s.phase = .select msg → s.prevCloud = some prev →
      prev.start < msg.start ∧ ∀ x ∈ old, x < prev.start := by
    intro msg prev hp hc
    rw [hp, hc] at hg
    have hpo := hci.phaseOk
    rw [hp] at hpo
    obtain ⟨cs, prev', e1, e2, _⟩ := hpo
    rw [hc] at e1
    obtain rfl := Option.some.inj e1
    have hmono := hci.mono
    rw [e2] at hmono
    have := (List.pairwise_append.1 hmono).2.1
    simp at this
    exact ⟨this, hg⟩
  cases hm with
  | imuQuiet m _ _ h0 hlt => exact h
  | imuOdometry m p _ _ h0 hlt => exact h
  | optimisedA t m _ _ _ _ => exact h
  | optimisedB p last _ _ => exact h
  | barometer p _ _ ht =>
    obtain ⟨bb, bt, ps, rfl, _⟩ := ht.frame
    exact h
  | stereoQuiet t _ _ => exact ⟨old, by simp only; rw [he]; simp, hg⟩
  | stereoSent t _ _ => exact ⟨old, by simp only [FE.emit]; rw [he]; simp, hg⟩
  | cloudFirst msg hp hc' h0 hlt =>
    refine ⟨old, he, ?_⟩
    rw [hp, hc'] at hg
    simp only [hp]
    obtain rfl : old = [] := hg
    intro x hx; simp at hx
  | cloudNext msg prev hp hc' h0 hlt =>
    refine ⟨old, he, ?_⟩
    rw [hp, hc'] at hg
    simp only [hc']
    exact hg
  | selectWait msg prev hp hc' _ hall =>
    obtain ⟨h1, h2⟩ := hsel msg prev hp hc'
    refine ⟨s.ghost.stereo, by simp, ?_⟩
    simp only [hp, hc']
    intro x hx
    rw [he] at hx
    rcases List.mem_append.1 hx with hx | hx
    · exact h2 x hx
    · exact hall x hx
  | selectFrame msg prev f rest hp hc' _ hf hr hle hlt ho =>
    obtain ⟨h1, h2⟩ := hsel msg prev hp hc'
    obtain ⟨old2, e2, h3⟩ := ho
    have goal : SInv s.ghost.stereo rest s.prevCloud (.imu msg f) := by
      refine ⟨old ++ old2 ++ [f], by rw [he, e2]; simp, ?_⟩
      intro x hx
      simp only [List.mem_append, List.mem_singleton] at hx
      rcases hx with (hx | hx) | rfl
      · have := h2 x hx; omega
      · have := h3 x hx; omega
      · exact hlt
    split
    · exact goal
    · exact goal
  | selectStart msg prev l hp hc' hl ho =>
    obtain ⟨h1, h2⟩ := hsel msg prev hp hc'
    split at ho
    · obtain ⟨old2, f, rest, rfl, e2, h3, _⟩ := ho
      refine ⟨old ++ old2, by simp only; rw [he, e2]; simp, ?_⟩
      intro x hx
      rcases List.mem_append.1 hx with hx | hx
      · have := h2 x hx; omega
      · have := h3 x hx; omega
    · subst ho
      exact ⟨old, he, fun x hx => by have := h2 x hx; omega⟩
  | s2s msg prev t first others m ms hp hc' hin hb hle hsel => exact ⟨old, he, by rw [hp] at hg; exact hg⟩
  | initWait msg prev t hp hc' hin hwt => exact ⟨old, he, by rw [hp] at hg; exact hg⟩
  | initial msg prev t m hp hc' hint => exact ⟨old, he, by rw [hp] at hg; exact hg⟩
  | biasKnown msg prev t hp hc' hb hbs hle => exact ⟨old, he, by rw [hp] at hg; exact hg⟩
  | deskew msg prev t hp hc' => exact ⟨old, he, by rw [hp] at hg; exact hg⟩
  | finishBaro msg prev t hp hc' _ ht =>
    obtain ⟨bb, bt, ps, rfl, _⟩ := ht.frame
    exact ⟨old, he, by rw [hp] at hg; exact hg⟩
  | finish msg prev t hp hc' _ => exact ⟨old, he, by rw [hp] at hg; exact hg⟩

theorem si (cfg : Cfg A K) (s : FE A K) (hr : Reach cfg s) : SI s :=
  Reach.induct (P := fun s => SI s) ⟨[], rfl, rfl⟩ (fun s s' hr h hm => si_move cfg s s' (ci cfg s hr) h hm) hr

theorem find_append {old : List Int} {a f : Int} {rest : List Int} (h : ∀ x ∈ old, x < a) (hf : a ≤ f) :
    (old ++ f :: rest).find? (fun x => decide (a ≤ x)) = some f := by
  rw [List.find?_append]
  have : old.find? (fun x => decide (a ≤ x)) = none := by
    rw [List.find?_eq_none]
    intro x hx; have := h x hx; simp; omega
  rw [this]; simp [hf]

/-- C78. Of the stereo frames received so far (stamps cut to microseconds) the first one that is not earlier than the
sweep decides: if it is earlier than the next sweep, it becomes the state; otherwise the state is the start of the sweep;
if there is no such frame yet, the callback waits. -/
theorem C78_frame (cfg : Cfg A K) (s s' : FE A K) {msg prev : Cloud} (hr : Reach cfg s) (hc : cfg.stereo = true)
    (hp : s.phase = .select msg) (hpc : s.prevCloud = some prev) (hs : step cfg .go s = some (.ok (), s')) :
    s'.phase = match s.ghost.stereo.find? (fun f => decide (prev.usec * 1000 ≤ f)) with
      | none => .select msg
      | some f => .imu msg (if f < msg.usec * 1000 then f else prev.usec * 1000) := by
  obtain ⟨old, he, hg⟩ := (si cfg s hr).gone
  rw [hp, hpc] at hg
  have hm := move_go cfg s s' hs
  have hstart : ∀ c : Cloud, c.start = c.usec * 1000 := fun _ => rfl
  have hex : ∀ msg' prev', s.phase = .select msg' → s.prevCloud = some prev' → msg' = msg ∧ prev' = prev := by
    intro m p h1 h2
    rw [hp] at h1; rw [hpc] at h2
    exact ⟨by simpa using h1.symm, by simpa using h2.symm⟩
  have hold : ∀ x ∈ old, x < prev.usec * 1000 := hg
  unfold step goStep at hs
  rw [hp, hpc] at hs
  simp only [Option.some.injEq] at hs
  unfold selectState at hs
  rw [if_pos hc] at hs
  split at hs
  · rename_i hd
    obtain rfl := (Prod.mk.inj hs).2
    have hnone : s.ghost.stereo.find? (fun f => decide (prev.usec * 1000 ≤ f)) = none := by
      rw [List.find?_eq_none]
      intro x hx
      have : x < prev.usec * 1000 := by
        rw [he] at hx
        rcases List.mem_append.1 hx with hx | hx
        · exact hold x hx
        · exact dropOldStereo_nil _ _ hd x hx
      simp; omega
    rw [hnone]; exact hp
  · rename_i f rest hd
    obtain ⟨old2, e2, h3⟩ := dropOldStereo_split _ _ _ _ hd
    have hf := dropOldStereo_head _ _ _ _ hd
    have hfind : s.ghost.stereo.find? (fun f => decide (prev.usec * 1000 ≤ f)) = some f := by
      rw [he, e2, ← List.append_assoc]
      exact find_append (fun x hx => by
        rcases List.mem_append.1 hx with hx | hx
        · exact hold x hx
        · exact h3 x hx) hf
    rw [hfind]
    dsimp only
    rw [hstart] at hs
    split at hs
    · rename_i hlt
      obtain rfl := (Prod.mk.inj hs).2
      rw [if_pos hlt]
      split <;> rfl
    · rename_i hlt
      obtain rfl := (Prod.mk.inj hs).2
      rw [if_neg hlt]; rfl

/-- C78. Without stereo, the state is the start of the sweep. -/
theorem C78_no_stereo (cfg : Cfg A K) (s s' : FE A K) {msg prev : Cloud} (hc : cfg.stereo = false)
    (hp : s.phase = .select msg) (hpc : s.prevCloud = some prev) (hs : step cfg .go s = some (.ok (), s')) :
    s'.phase = .imu msg (prev.usec * 1000) := by
  unfold step goStep at hs
  rw [hp, hpc] at hs
  simp only [Option.some.injEq] at hs
  unfold selectState at hs
  rw [if_neg (by simp [hc])] at hs
  obtain rfl := (Prod.mk.inj hs).2
  rfl

/-- C78. The time that was selected is the one of the state that is sent to the back end. -/
theorem C78_sent (cfg : Cfg A K) (s s' : FE A K) {msg : Cloud} {t : Int}
    (hp : s.phase = .imu msg t ∨ s.phase = .init msg t) (hs : step cfg .go s = some (.ok (), s')) :
    (s'.phase = .init msg t ∧ s'.pubs = s.pubs) ∨
    (∃ a ms, s'.pubs = s.pubs ++ [.imuS2s a t ms]) ∨ s'.pubs = s.pubs ++ [.initial t] := by
  unfold step goStep at hs
  cases hpc : s.prevCloud with
  | none => rcases hp with hp | hp <;> simp [hp, hpc] at hs
  | some prev =>
    rcases hp with hp | hp
    · rw [hp, hpc] at hs
      dsimp only at hs
      split at hs
      · have hs := Option.some.inj hs
        unfold publishS2s at hs
        split at hs
        · simp at hs
        · split at hs
          · simp at hs
          · split at hs
            · simp at hs
            · simp at hs
            · simp at hs
            · obtain rfl := (Prod.mk.inj hs).2
              exact .inr (.inl ⟨_, _, rfl⟩)
      · split at hs
        · simp at hs
        · obtain rfl := (Prod.mk.inj (Option.some.inj hs)).2
          exact .inl ⟨rfl, rfl⟩
    · rw [hp, hpc] at hs
      have hs := Option.some.inj hs
      unfold publishInitial at hs
      split at hs
      · simp at hs
      · simp at hs
      · obtain rfl := (Prod.mk.inj hs).2
        exact .inr (.inr rfl)

/-- The demonstration takes the frame at 112.345 µs for the first sweep (111 µs to 121 µs), and the start of the second
sweep, for which the next frame is too late. -/
example : (runEvs demoCfg demoEvs {}).map (fun s => (s.ghost.stereo, s.ghost.states)) =
    some ([112000, 135000], [112000, 121000]) := by decide +kernel

end FrontEnd

end Serpent
