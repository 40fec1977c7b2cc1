import Verif.Lemmas.FrontEndFun

/-!
# The sections of the front end that complete normally, one case per path
-/

namespace Serpent

namespace FrontEnd

open Utils

variable {A K : Type} [Field K]

/-- Paths of `tryPublish` that complete normally. -/
inductive Tried : FE A K → FE A K → Prop where
  | nothing {s} : s.baroTimes = [] → Tried s s
  | first {s} {t : Int} {times : List Int} {first : Pressure K} {rest : List (Pressure K)} :
      s.baroTimes = t :: times → s.baroBuffer = first :: rest → t < first.stamp →
      Tried s ({ s with baroTimes := times }.emit (.barometer { first with stamp := t }))
  | between {s} {t : Int} {times : List Int} {before : List (Pressure K)} {a b : Pressure K} {after : List (Pressure K)}
      {p : Pressure K} :
      s.baroTimes = t :: times → s.baroBuffer = before ++ a :: b :: after → a.stamp ≤ t → t ≤ b.stamp →
      (before ≠ [] → a.stamp < t) → interpolatePressure a b t = .ok p →
      Tried s ({ s with baroBuffer := a :: b :: after, baroTimes := times }.emit (.barometer p))
  | wait {s} {t : Int} {times : List Int} {first : Pressure K} {rest : List (Pressure K)} :
      s.baroTimes = t :: times → s.baroBuffer = first :: rest → first.stamp ≤ t →
      (rest = [] ∨ ((first :: rest).getLast (by simp)).stamp ≤ t) → Tried s s

theorem tried_of (s s' : FE A K) (h : tryPublish s = (.ok (), s')) : Tried s s' := by
  unfold tryPublish at h
  split at h
  · rename_i ht
    obtain rfl : s = s' := by simpa using h
    exact .nothing ht
  · rename_i t times ht
    split at h
    · simp at h
    · rename_i first rest hb
      split at h
      · rename_i hc
        obtain rfl := (Prod.mk.inj h).2
        exact .first ht hb hc
      · rename_i hc
        split at h
        · rename_i hd
          split at h
          · simp at h
          · simp at h
          · rename_i buf hbuf
            have hlast : rest.getLast? = some ((first :: rest).getLast (by simp)) := by
              rw [hb] at hd
              cases rest with
              | nil => simp at hd
              | cons y ys => simp [List.getLast?_eq_getLast_of_ne_nil]
            obtain ⟨before, x, y, after, h1, h2, h3, h4, h5⟩ :=
              dropOldBaro_cases t s.baroBuffer first rest hb (by omega) _ hlast hd.2
            rw [h4] at hbuf
            obtain rfl : x :: y :: after = buf := by simpa using hbuf
            dsimp only at h
            split at h
            · rename_i p hp
              obtain rfl := (Prod.mk.inj h).2
              exact .between ht h1 h2 h3 h5 hp
            · simp at h
            · simp at h
        · rename_i hd
          obtain rfl : s = s' := by simpa using h
          refine .wait ht hb (by omega) ?_
          rw [hb] at hd
          by_cases hl : rest = []
          · exact .inl hl
          · right
            have : 2 ≤ (first :: rest).length := by
              cases rest with
              | nil => exact absurd rfl hl
              | cons _ _ => simp
            by_contra hcon
            exact hd ⟨this, by omega⟩

/-- Everything except the barometer queues and the sent messages. -/
theorem Tried.frame {s s' : FE A K} (h : Tried s s') :
    ∃ bb bt ps, s' = { s with baroBuffer := bb, baroTimes := bt, pubs := s.pubs ++ ps } ∧
      (ps = [] ∨ ∃ p, ps = [.barometer p]) := by
  cases h with
  | nothing _ => exact ⟨_, _, [], by simp; rfl, .inl rfl⟩
  | first _ _ _ => exact ⟨_, _, _, rfl, .inr ⟨_, rfl⟩⟩
  | between _ _ _ _ _ _ => exact ⟨_, _, _, rfl, .inr ⟨_, rfl⟩⟩
  | wait _ _ _ _ => exact ⟨_, _, [], by simp; rfl, .inl rfl⟩

/-- Sections that complete normally. -/
inductive Move (cfg : Cfg A K) : FE A K → FE A K → Prop where
  | imuQuiet {s} (m : Stamped A) : s.optBusy = false → s.preint = none →
      0 < m.stamp → (∀ x ∈ s.ghost.imu, x.stamp < m.stamp) →
      Move cfg s { s with
        imuBuffer := s.imuBuffer ++ [m]
        lastPreint := m.stamp
        ghost := { s.ghost with imu := s.ghost.imu ++ [m] } }
  | imuOdometry {s} (m : Stamped A) (p : List (Stamped A × Int)) : s.optBusy = false → s.preint = some p →
      0 < m.stamp → (∀ x ∈ s.ghost.imu, x.stamp < m.stamp) →
      Move cfg s ({ s with
        imuBuffer := s.imuBuffer ++ [m]
        lastPreint := m.stamp
        preint := some (p ++ [(m, m.stamp - s.lastPreint)])
        ghost := { s.ghost with imu := s.ghost.imu ++ [m] } }.emit (.odometry m.stamp))
  | optimisedA {s} (t : Int) (m : Stamped A) : s.optBusy = false → t ∈ s.ghost.states → s.biasStamp < t →
      interpolatedImu cfg.interp s.imuBuffer t = .ok m →
      Move cfg s { s with biasStamp := t, optBusy := true }
  | optimisedB {s} (p : List (Stamped A × Int)) (last : Int) : s.optBusy = true →
      reintegrate cfg.strict s.imuBuffer s.biasStamp [] = .ok (p, last) →
      Move cfg s { s with preint := some p, lastPreint := last, optBusy := false }
  | barometer {s s'} (p : Pressure K) : cfg.baro = true → (∀ x ∈ s.ghost.baro, x.stamp < p.stamp) →
      Tried { s with baroBuffer := s.baroBuffer ++ [p], ghost := { s.ghost with baro := s.ghost.baro ++ [p] } } s' →
      Move cfg s s'
  | stereoQuiet {s} (t : Int) : cfg.stereo = true → cfg.onlyGraphFrames = true →
      Move cfg s { s with
        stereoBuffer := s.stereoBuffer ++ [t / 1000 * 1000]
        ghost := { s.ghost with stereo := s.ghost.stereo ++ [t / 1000 * 1000] } }
  | stereoSent {s} (t : Int) : cfg.stereo = true → cfg.onlyGraphFrames = false →
      Move cfg s ({ s with
        stereoBuffer := s.stereoBuffer ++ [t / 1000 * 1000]
        ghost := { s.ghost with stereo := s.ghost.stereo ++ [t / 1000 * 1000] } }.emit (.stereo (t / 1000 * 1000)))
  | cloudFirst {s} (msg : Cloud) : s.phase = .idle → s.prevCloud = none → 0 < msg.start →
      (∀ x ∈ s.ghost.clouds, x.start < msg.start) →
      Move cfg s { s with ghost := { s.ghost with clouds := s.ghost.clouds ++ [msg] }, prevCloud := some msg }
  | cloudNext {s} (msg prev : Cloud) : s.phase = .idle → s.prevCloud = some prev → 0 < msg.start →
      (∀ x ∈ s.ghost.clouds, x.start < msg.start) →
      Move cfg s { s with ghost := { s.ghost with clouds := s.ghost.clouds ++ [msg] }, phase := .select msg }
  | selectWait {s} (msg prev : Cloud) : s.phase = .select msg → s.prevCloud = some prev → cfg.stereo = true →
      (∀ x ∈ s.stereoBuffer, x < prev.start) → Move cfg s { s with stereoBuffer := [] }
  | selectFrame {s} (msg prev : Cloud) (f : Int) (rest : List Int) : s.phase = .select msg → s.prevCloud = some prev →
      cfg.stereo = true → f ∈ s.stereoBuffer → (∀ x ∈ rest, x ∈ s.stereoBuffer) → prev.start ≤ f → f < msg.start →
      (∃ old, s.stereoBuffer = old ++ f :: rest ∧ ∀ x ∈ old, x < prev.start) →
      Move cfg s (if cfg.onlyGraphFrames then { s with stereoBuffer := rest, phase := .imu msg f }.emit (.stereo f)
        else { s with stereoBuffer := rest, phase := .imu msg f })
  | selectStart {s} (msg prev : Cloud) (l : List Int) : s.phase = .select msg → s.prevCloud = some prev →
      (∀ x ∈ l, x ∈ s.stereoBuffer) →
      (if cfg.stereo then ∃ old f rest, l = f :: rest ∧ s.stereoBuffer = old ++ l ∧ (∀ x ∈ old, x < prev.start) ∧ msg.start ≤ f
        else l = s.stereoBuffer) →
      Move cfg s { s with stereoBuffer := l, phase := .imu msg prev.start }
  | s2s {s} (msg prev : Cloud) (t : Int) (first : Stamped A) (others : List (Stamped A)) (m : Stamped A)
      (ms : List (Stamped A)) :
      s.phase = .imu msg t → s.prevCloud = some prev → s.initialised = true → s.imuBuffer = first :: others →
      first.stamp ≤ s.prevState → selectImu s.prevState t s.imuBuffer = .ok (m :: ms) →
      Move cfg s ({ s with
          imuBuffer := deleteOld m.stamp s.imuBuffer
          phase := .bias msg t
          ghost := { s.ghost with states := s.ghost.states ++ [t] } }.emit (.imuS2s s.prevState t (m :: ms)))
  | initWait {s} (msg prev : Cloud) (t : Int) : s.phase = .imu msg t → s.prevCloud = some prev →
      s.initialised = false → t ≤ s.lastPreint → Move cfg s { s with phase := .init msg t }
  | initial {s} (msg prev : Cloud) (t : Int) (m : Stamped A) : s.phase = .init msg t → s.prevCloud = some prev →
      interpolatedImu cfg.interp s.imuBuffer t = .ok m →
      Move cfg s ({ s with
        prevState := t
        phase := .bias msg t
        ghost := { s.ghost with states := s.ghost.states ++ [t] } }.emit (.initial t))
  | biasKnown {s} (msg prev : Cloud) (t : Int) : s.phase = .bias msg t → s.prevCloud = some prev → s.optBusy = false →
      s.biasStamp = s.prevState → prev.stop ≤ s.lastPreint → Move cfg s { s with phase := .deskew msg t }
  | deskew {s} (msg prev : Cloud) (t : Int) : s.phase = .deskew msg t → s.prevCloud = some prev →
      Move cfg s ({ s with phase := .baro msg t }.emit (.cloud (t / 1000)))
  | finishBaro {s s'} (msg prev : Cloud) (t : Int) : s.phase = .baro msg t → s.prevCloud = some prev → cfg.baro = true →
      Tried { s with
        baroTimes := s.baroTimes ++ [t]
        ghost := { s.ghost with baroStates := s.ghost.baroStates ++ [t] } } s' →
      Move cfg s { s' with prevState := t, initialised := true, prevCloud := some msg, phase := .idle }
  | finish {s} (msg prev : Cloud) (t : Int) : s.phase = .baro msg t → s.prevCloud = some prev → cfg.baro = false →
      Move cfg s { s with prevState := t, initialised := true, prevCloud := some msg, phase := .idle }

omit [Field K] in
theorem record_ok {strict : Bool} {p p' : List (Stamped A × Int)} {m : Stamped A} {dt : Int}
    (h : record strict p m dt = .ok p') : p' = p ++ [(m, dt)] := by
  unfold record at h
  split at h
  · simp at h
  · exact (Outcome.ok.inj h).symm

theorem move_go (cfg : Cfg A K) (s s' : FE A K) (hs : goStep cfg s = some (.ok (), s')) : Move cfg s s' := by
  unfold goStep at hs
  split at hs
  · simp at hs
  · simp at hs
  · rename_i msg prev hp hc
    have hs := Option.some.inj hs
    unfold selectState at hs
    split at hs
    · rename_i hst
      split at hs
      · rename_i hd
        obtain rfl := (Prod.mk.inj hs).2
        exact .selectWait msg prev hp hc hst (dropOldStereo_nil _ _ hd)
      · rename_i f rest hd
        have hm : ∀ x ∈ f :: rest, x ∈ s.stereoBuffer := fun x hx => dropOldStereo_mem _ _ x (hd ▸ hx)
        have hh := dropOldStereo_head _ _ _ _ hd
        split at hs
        · rename_i hf
          obtain rfl := (Prod.mk.inj hs).2
          exact .selectFrame msg prev f rest hp hc hst (hm f (by simp)) (fun x hx => hm x (by simp [hx])) hh hf
            (dropOldStereo_split _ _ _ _ hd)
        · rename_i hf
          obtain rfl := (Prod.mk.inj hs).2
          obtain ⟨old, h1, h2⟩ := dropOldStereo_split _ _ _ _ hd
          exact .selectStart msg prev _ hp hc hm (by rw [if_pos hst]; exact ⟨old, f, rest, rfl, h1, h2, by omega⟩)
    · rename_i hst
      obtain rfl := (Prod.mk.inj hs).2
      exact .selectStart msg prev s.stereoBuffer hp hc (fun _ h => h) (by rw [if_neg hst])
  · rename_i msg t prev hp hc
    split at hs
    · rename_i hi
      have hs := Option.some.inj hs
      unfold publishS2s at hs
      split at hs
      · simp at hs
      · rename_i first others hb
        split at hs
        · simp at hs
        · rename_i hf
          split at hs
          · simp at hs
          · simp at hs
          · simp at hs
          · rename_i m ms hsel
            obtain rfl := (Prod.mk.inj hs).2
            exact .s2s msg prev t first others m ms hp hc hi hb (by omega) hsel
    · rename_i hi
      split at hs
      · simp at hs
      · rename_i hw
        obtain rfl := (Prod.mk.inj (Option.some.inj hs)).2
        exact .initWait msg prev t hp hc (by simpa using hi) (by by_contra hcon; exact hw (.inr (by omega)))
  · rename_i msg t prev hp hc
    have hs := Option.some.inj hs
    unfold publishInitial at hs
    split at hs
    · simp at hs
    · simp at hs
    · rename_i m hm
      obtain rfl := (Prod.mk.inj hs).2
      exact .initial msg prev t m hp hc hm
  · rename_i msg t prev hp hc
    split at hs
    · simp at hs
    · rename_i hn
      obtain rfl := (Prod.mk.inj (Option.some.inj hs)).2
      rw [not_or, not_or] at hn
      exact .biasKnown msg prev t hp hc (by simpa using hn.1) (not_not.1 hn.2.1) (by omega)
  · rename_i msg t prev hp hc
    have hs := Option.some.inj hs
    unfold deskewCloud at hs
    dsimp only at hs
    split at hs
    · simp at hs
    · simp at hs
    · split at hs
      · simp at hs
      · simp at hs
      · obtain rfl := (Prod.mk.inj hs).2
        exact .deskew msg prev t hp hc
  · rename_i msg t prev hp hc
    have hs := Option.some.inj hs
    unfold finishCloud at hs
    by_cases hb : cfg.baro = true
    · simp only [hb, if_true] at hs
      split at hs
      · rename_i s1 h1
        obtain rfl := (Prod.mk.inj hs).2
        exact .finishBaro msg prev t hp hc hb (tried_of _ _ h1)
      · simp at hs
      · simp at hs
    · simp only [hb] at hs
      obtain rfl := (Prod.mk.inj hs).2
      exact .finish msg prev t hp hc (by simpa using hb)

theorem move_of_step (cfg : Cfg A K) (ev : Ev A K) (s s' : FE A K) (ha : Admissible ev s)
    (hs : step cfg ev s = some (.ok (), s')) : Move cfg s s' := by
  cases ev with
  | imu m =>
    simp only [step] at hs
    split at hs
    · simp at hs
    · rename_i hb
      have hs := Option.some.inj hs
      unfold imuCallback at hs
      dsimp only at hs
      split at hs
      · rename_i hp
        obtain rfl := (Prod.mk.inj hs).2
        exact .imuQuiet m (by simpa using hb) hp ha.1 ha.2
      · rename_i p hp
        split at hs
        · rename_i p' hr
          obtain rfl := (Prod.mk.inj hs).2
          rw [record_ok hr]
          exact .imuOdometry m p (by simpa using hb) hp ha.1 ha.2
        · simp at hs
        · simp at hs
  | optimisedA t =>
    simp only [step] at hs
    split at hs
    · simp at hs
    · rename_i hb
      have hs := Option.some.inj hs
      unfold optimisedA at hs
      dsimp only at hs
      split at hs
      · simp at hs
      · simp at hs
      · rename_i m hm
        split at hs
        · obtain rfl := (Prod.mk.inj hs).2
          exact .optimisedA t m (by simpa using hb) ha.1 ha.2 hm
        · simp at hs
  | optimisedB =>
    simp only [step] at hs
    split at hs
    · rename_i hb
      have hs := Option.some.inj hs
      unfold optimisedB at hs
      split at hs
      · rename_i p last hr
        obtain rfl := (Prod.mk.inj hs).2
        exact .optimisedB p last hb hr
      · simp at hs
      · simp at hs
    · simp at hs
  | barometer p =>
    simp only [step] at hs
    split at hs
    · rename_i hb
      have hs := tried_of _ _ (Option.some.inj hs)
      refine .barometer _ hb ?_ hs
      intro x hx
      have := ha x hx
      cases cfg.overwriteVariance <;> exact this
    · simp at hs
  | stereo t =>
    simp only [step] at hs
    split at hs
    · rename_i hb
      have hs := Option.some.inj hs
      unfold stereoCallback at hs
      dsimp only at hs
      by_cases ho : cfg.onlyGraphFrames = true
      · rw [if_pos ho] at hs
        obtain rfl := (Prod.mk.inj hs).2
        exact .stereoQuiet t hb ho
      · rw [if_neg ho] at hs
        obtain rfl := (Prod.mk.inj hs).2
        exact .stereoSent t hb (by simpa using ho)
    · simp at hs
  | cloud msg =>
    simp only [step] at hs
    split at hs
    · rename_i hp
      have hs := Option.some.inj hs
      unfold cloudArrives at hs
      split at hs
      · simp at hs
      · dsimp only at hs
        split at hs
        · rename_i hc
          obtain rfl := (Prod.mk.inj hs).2
          exact .cloudFirst msg hp hc ha.1 ha.2
        · rename_i prev hc
          obtain rfl := (Prod.mk.inj hs).2
          exact .cloudNext msg prev hp hc ha.1 ha.2
    · simp at hs
  | go => exact move_go cfg s s' hs

/-- Induction over reachable states. -/
theorem Reach.induct {cfg : Cfg A K} {P : FE A K → Prop} (h0 : P {})
    (hm : ∀ s s', Reach cfg s → P s → Move cfg s s' → P s') {s : FE A K} (h : Reach cfg s) : P s := by
  induction h with
  | init => exact h0
  | step hr ha hs ih => exact hm _ _ hr ih (move_of_step cfg _ _ _ ha hs)

end FrontEnd

end Serpent
