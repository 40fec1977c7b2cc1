import Verif.Lemmas.FrontEndPubs

/-!
# Invariant of the barometer queues
-/

namespace Serpent

namespace FrontEnd

open Utils

variable {A K : Type} [Field K]

/-- The barometer readings sent, in order. -/
def readings (pubs : List (Pub A K)) : List (Pressure K) := pubs.filterMap readingOf

structure BInv (baro buffer : List (Pressure K)) (times baroStates : List Int) (pubs : List (Pub A K)) : Prop where
  ordered : baro.Pairwise (fun a b => a.stamp < b.stamp)
  suffix : buffer <:+ baro
  ne : baro ≠ [] → buffer ≠ []
  queue : (readings pubs).map (fun p => p.stamp) ++ times = baroStates
  reading : ∀ p ∈ readings pubs, ∃ received, received <+: baro ∧ IsReading received p.stamp p
  anchor : buffer = baro ∨ ∃ first, buffer.head? = some first ∧ ∃ p ∈ readings pubs, first.stamp < p.stamp

abbrev BI (s : FE A K) : Prop := BInv s.ghost.baro s.baroBuffer s.baroTimes s.ghost.baroStates s.pubs

omit [Field K] in
theorem readings_barometer (pubs : List (Pub A K)) (p : Pressure K) :
    readings (pubs ++ [.barometer p]) = readings pubs ++ [p] := by
  simp [readings, readingOf]

omit [Field K] in
theorem readings_other (pubs : List (Pub A K)) (p : Pub A K) (h : readingOf p = none) :
    readings (pubs ++ [p]) = readings pubs := by
  simp [readings, h]

theorem interpolatePressure_stamp {a b p : Pressure K} {t : Int} (h : interpolatePressure a b t = .ok p) :
    p.stamp = t := by
  unfold interpolatePressure at h
  cases h1 : interpolate a.pressure b.pressure a.stamp b.stamp t with
  | throws => rw [h1] at h; simp at h
  | ub => rw [h1] at h; simp at h
  | ok x =>
    rw [h1, Outcome.bind_ok] at h
    cases h2 : interpolate a.variance b.variance a.stamp b.stamp t with
    | throws => rw [h2] at h; simp at h
    | ub => rw [h2] at h; simp at h
    | ok y =>
      rw [h2, Outcome.bind_ok] at h
      rw [← Outcome.ok.inj h]

theorem bi_tried {s s' : FE A K} (ht : Tried s s') (h : BI s) (hinc : s.ghost.baroStates.Pairwise (· < ·)) : BI s' := by
  cases ht with
  | nothing _ => exact h
  | wait _ _ _ _ => exact h
  | @first t times first rest h1 h2 h3 =>
    have hq := h.queue
    rw [h1] at hq
    have hb : s.baroBuffer = s.ghost.baro := by
      rcases h.anchor with ha | ⟨f, hf, p, hp, hlt⟩
      · exact ha
      · exfalso
        rw [h2] at hf
        obtain rfl : first = f := by simpa using hf
        rw [← hq] at hinc
        have := (List.pairwise_append.1 hinc).2.2 p.stamp (List.mem_map_of_mem hp) t (by simp)
        omega
    refine ⟨h.ordered, h.suffix, h.ne, ?_, ?_, .inl hb⟩
    · simp only [FE.emit, readings_barometer, ← hq]; simp
    · intro p hp
      simp only [FE.emit, readings_barometer] at hp
      rcases List.mem_append.1 hp with hp | hp
      · exact h.reading p hp
      · obtain rfl : p = { first with stamp := t } := by simpa using hp
        refine ⟨s.ghost.baro, List.prefix_refl _, .inl ⟨first, rest, by rw [← hb, h2], ?_, rfl⟩⟩
        intro x hx
        have ho := h.ordered
        rw [← hb, h2] at ho hx
        rcases List.mem_cons.1 hx with rfl | hx
        · exact h3
        · have := (List.pairwise_cons.1 ho).1 x hx
          simp only; omega
  | @between t times before a b after p h1 h2 h3 h4 h5 h6 =>
    have hq := h.queue
    rw [h1] at hq
    have hst := interpolatePressure_stamp h6
    have hsuf : (a :: b :: after) <:+ s.ghost.baro := by
      obtain ⟨pre, hpre⟩ := h.suffix
      exact ⟨pre ++ before, by rw [← hpre, h2]; simp⟩
    refine ⟨h.ordered, hsuf, by simp [FE.emit], ?_, ?_, ?_⟩
    · simp only [FE.emit, readings_barometer, ← hq]; simp [hst]
    · intro p' hp
      simp only [FE.emit, readings_barometer] at hp
      rcases List.mem_append.1 hp with hp | hp
      · exact h.reading p' hp
      · obtain rfl : p' = p := by simpa using hp
        obtain ⟨pre, hpre⟩ := hsuf
        exact ⟨s.ghost.baro, List.prefix_refl _, .inr ⟨pre, a, b, after, hpre.symm, by omega, by omega, by rw [hst, h6]⟩⟩
    · simp only [FE.emit, readings_barometer]
      by_cases hb : before = []
      · subst hb
        rcases h.anchor with ha | ⟨f, hf, q, hq, hlt⟩
        · left; rw [← ha, h2]; rfl
        · right
          rw [h2] at hf
          exact ⟨f, hf, q, List.mem_append_left _ hq, hlt⟩
      · right
        exact ⟨a, rfl, p, by simp, by have := h5 hb; omega⟩

/-- States for which a barometer reading was requested. -/
def requested (states : List Int) : Phase → List Int
  | .bias _ _ | .deskew _ _ | .baro _ _ => states.dropLast
  | _ => states

/-- Requests. -/
def BS (cfg : Cfg A K) (s : FE A K) : Prop :=
  s.ghost.baroStates = if cfg.baro then requested s.ghost.states s.phase else []

theorem bs_move (cfg : Cfg A K) (s s' : FE A K) (hc : CI s) (h : BS cfg s) (hm : Move cfg s s') : BS cfg s' := by
  unfold BS at h ⊢
  cases hm with
  | imuQuiet m _ _ _ _ => exact h
  | imuOdometry m p _ _ _ _ => exact h
  | optimisedA t m _ _ _ _ => exact h
  | optimisedB p last _ _ => exact h
  | barometer p _ _ ht =>
    obtain ⟨bb, bt, ps, rfl, hp⟩ := ht.frame
    exact h
  | stereoQuiet t _ _ => exact h
  | stereoSent t _ ho => exact h
  | cloudFirst msg hp hc' h0 hlt => exact h
  | cloudNext msg prev hp hc' h0 hlt => rw [hp] at h; exact h
  | selectWait msg prev hp hc' _ _ => exact h
  | selectFrame msg prev f rest hp hc' _ hf hr hle hlt _ =>
    rw [hp] at h
    split
    · exact h
    · exact h
  | selectStart msg prev l hp hc' hl _ => rw [hp] at h; exact h
  | s2s msg prev t first others m ms hp hc' hin hb hle hsel =>
    rw [hp] at h
    simpa [FE.emit, requested] using h
  | initWait msg prev t hp hc' hin hwt => rw [hp] at h; exact h
  | initial msg prev t m hp hc' hint =>
    rw [hp] at h
    simpa [FE.emit, requested] using h
  | biasKnown msg prev t hp hc' _ _ _ => rw [hp] at h; exact h
  | deskew msg prev t hp hc' => rw [hp] at h; exact h
  | finishBaro msg prev t hp hc' hon ht =>
    obtain ⟨bb, bt, ps, rfl, hps⟩ := ht.frame
    rw [hp] at h
    have hpo := hc.phaseOk
    rw [hp] at hpo
    obtain ⟨cs, prev', h1, h2, h3, h4⟩ := hpo
    obtain ⟨ss, hss⟩ : ∃ ss, s.ghost.states = ss ++ [t] := by
      split at h4
      · obtain ⟨ss, h4⟩ := h4
        exact ⟨ss ++ [s.prevState], by rw [h4]; simp⟩
      · exact ⟨[], h4.1⟩
    simp only [hon, if_true, requested, hss, List.dropLast_concat] at h ⊢
    rw [h]
  | finish msg prev t hp hc' hoff => simp only [hoff] at h ⊢; exact h

theorem bs (cfg : Cfg A K) (s : FE A K) (hr : Reach cfg s) : BS cfg s := by
  refine Reach.induct (P := fun s => BS cfg s) ?_ (fun s s' hr h hm => bs_move cfg s s' (ci cfg s hr) h hm) hr
  simp [BS, requested]

omit [Field K] in
theorem BS.increasing {cfg : Cfg A K} {s : FE A K} (h : BS cfg s) (hc : CI s) : s.ghost.baroStates.Pairwise (· < ·) := by
  rw [h]
  split
  · have := hc.increasing
    unfold requested
    split
    · exact this.sublist (List.dropLast_sublist _)
    · exact this.sublist (List.dropLast_sublist _)
    · exact this.sublist (List.dropLast_sublist _)
    · exact this
  · exact List.Pairwise.nil

omit [Field K] in
/-- The state reached by requesting a reading. -/
theorem request_increasing {cfg : Cfg A K} {s : FE A K} (h : BS cfg s) (hc : CI s) {msg : Cloud} {t : Int}
    (hp : s.phase = .baro msg t) : (s.ghost.baroStates ++ [t]).Pairwise (· < ·) := by
  rw [h]
  split
  · rw [hp]
    have hpo := hc.phaseOk
    rw [hp] at hpo
    obtain ⟨cs, prev', h1, h2, h3, h4⟩ := hpo
    obtain ⟨ss, hss⟩ : ∃ ss, s.ghost.states = ss ++ [t] := by
      split at h4
      · obtain ⟨ss, h4⟩ := h4
        exact ⟨ss ++ [s.prevState], by rw [h4]; simp⟩
      · exact ⟨[], h4.1⟩
    have := hc.increasing
    simp only [requested, hss, List.dropLast_concat]
    rw [hss] at this
    exact this
  · simp

theorem BInv.request {baro buffer : List (Pressure K)} {times baroStates : List Int} {pubs : List (Pub A K)}
    (h : BInv baro buffer times baroStates pubs) (t : Int) :
    BInv baro buffer (times ++ [t]) (baroStates ++ [t]) pubs :=
  ⟨h.ordered, h.suffix, h.ne, by rw [← h.queue]; simp, h.reading, h.anchor⟩

theorem BInv.message {baro buffer : List (Pressure K)} {times baroStates : List Int} {pubs : List (Pub A K)}
    (h : BInv baro buffer times baroStates pubs) (p : Pressure K) (hp : ∀ x ∈ baro, x.stamp < p.stamp) :
    BInv (baro ++ [p]) (buffer ++ [p]) times baroStates pubs := by
  refine ⟨?_, ?_, by simp, h.queue, ?_, ?_⟩
  · exact List.pairwise_append.2 ⟨h.ordered, by simp, fun a ha b hb => by
      have : b = p := by simpa using hb
      subst this; exact hp a ha⟩
  · obtain ⟨pre, hpre⟩ := h.suffix
    exact ⟨pre, by rw [← hpre]; simp⟩
  · intro q hq
    obtain ⟨r, h1, h2⟩ := h.reading q hq
    exact ⟨r, h1.trans (List.prefix_append _ _), h2⟩
  · rcases h.anchor with ha | ⟨f, hf, q, hq, hlt⟩
    · left; rw [ha]
    · right
      refine ⟨f, ?_, q, hq, hlt⟩
      cases hb : buffer with
      | nil => rw [hb] at hf; simp at hf
      | cons x xs => rw [hb] at hf; simpa using hf

theorem BInv.other {baro buffer : List (Pressure K)} {times baroStates : List Int} {pubs : List (Pub A K)}
    (h : BInv baro buffer times baroStates pubs) (p : Pub A K) (hp : readingOf p = none) :
    BInv baro buffer times baroStates (pubs ++ [p]) := by
  have e := readings_other pubs p hp
  exact ⟨h.ordered, h.suffix, h.ne, by rw [e]; exact h.queue, by rw [e]; exact h.reading, by rw [e]; exact h.anchor⟩

theorem bi_move (cfg : Cfg A K) (s s' : FE A K) (hc : CI s) (hb : BS cfg s) (h : BI s) (hm : Move cfg s s') : BI s' := by
  cases hm with
  | imuQuiet m _ _ _ _ => exact h
  | imuOdometry m p _ _ _ _ => exact h.other _ rfl
  | optimisedA t m _ _ _ _ => exact h
  | optimisedB p last _ _ => exact h
  | barometer p _ hp ht => exact bi_tried ht (h.message p hp) (hb.increasing hc)
  | stereoQuiet t _ _ => exact h
  | stereoSent t _ ho => exact h.other _ rfl
  | cloudFirst msg hp hc' h0 hlt => exact h
  | cloudNext msg prev hp hc' h0 hlt => exact h
  | selectWait msg prev hp hc' _ _ => exact h
  | selectFrame msg prev f rest hp hc' _ hf hr hle hlt _ =>
    split
    · exact h.other _ rfl
    · exact h
  | selectStart msg prev l hp hc' hl _ => exact h
  | s2s msg prev t first others m ms hp hc' hin _ hle hsel => exact h.other _ rfl
  | initWait msg prev t hp hc' hin hwt => exact h
  | initial msg prev t m hp hc' hint => exact h.other _ rfl
  | biasKnown msg prev t hp hc' _ _ _ => exact h
  | deskew msg prev t hp hc' => exact h.other _ rfl
  | finishBaro msg prev t hp hc' hon ht =>
    have := bi_tried ht (h.request t) (request_increasing hb hc hp)
    exact this
  | finish msg prev t hp hc' hoff => exact h

theorem bi (cfg : Cfg A K) (s : FE A K) (hr : Reach cfg s) : BI s := by
  refine Reach.induct (P := fun s => BI s) ?_
    (fun s s' hr h hm => bi_move cfg s s' (ci cfg s hr) (bs cfg s hr) h hm) hr
  exact ⟨List.Pairwise.nil, List.suffix_refl _, by simp, rfl, by simp [readings], .inl rfl⟩

end FrontEnd

end Serpent
