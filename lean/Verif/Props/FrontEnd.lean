import Verif.Lemmas.FrontEndBaro

/-!
# Properties of the front end

* C23 state times, C24 barometer readings, C25 IMU arrays, C26 running integration, C27 interpolated IMU measurement,
  C73 stamps of the messages of a state, C74 real-time odometry.

`Reach cfg s`: state `s` is reached by any interleaving of sections that completed normally, with sensors and back end
behaving as described at `Admissible`.
-/

namespace Serpent

namespace FrontEnd

open Utils

variable {A K : Type} [Field K]

/-! ### C23 -/

/-- C23. State times sent to the back end are strictly increasing, and state `i` lies between the start of pointcloud `i`
and the start of pointcloud `i + 1`, for every interleaving and any stereo stamps. -/
theorem C23_state_times (cfg : Cfg A K) (s : FE A K) (hr : Reach cfg s) :
    (sentStates s).Pairwise (· < ·) ∧
    ∀ i t, (sentStates s)[i]? = some t →
      ∃ c d, s.ghost.clouds[i]? = some c ∧ s.ghost.clouds[i + 1]? = some d ∧ c.start ≤ t ∧ t < d.start := by
  have h := ci cfg s hr
  have e : sentStates s = s.ghost.states := (pi cfg s hr).sent
  rw [e]
  exact ⟨h.increasing, h.placed⟩

/-- C23. Number of states: when no pointcloud callback is running, each pointcloud but the last has its state. -/
theorem C23_one_per_pointcloud (cfg : Cfg A K) (s : FE A K) (hr : Reach cfg s) (hi : s.phase = .idle) :
    (sentStates s).length = s.ghost.clouds.length - 1 := by
  have h := (ci cfg s hr).phaseOk
  rw [hi] at h
  have e : sentStates s = s.ghost.states := (pi cfg s hr).sent
  rw [e]
  exact h.2.1

/-! ### C25 -/

omit [Field K] in
theorem prev_lt {s : FE A K} (hc : CI s) {msg : Cloud} {t : Int} (hp : s.phase = .imu msg t)
    (hi : s.initialised = true) : s.prevState < t ∧ s.ghost.states.getLast? = some s.prevState := by
  have hpo := hc.phaseOk
  rw [hp] at hpo
  obtain ⟨cs, prev', h1, h2, h3, h4, h5, h6, h7⟩ := hpo
  rw [hi, if_pos rfl] at h4
  refine ⟨?_, h4⟩
  obtain ⟨ss, h4⟩ := List.getLast?_eq_some_iff.1 h4
  have := (hc.append_state h2 h3 t h5 h6 h7).1.increasing hc.mono
  rw [h4] at this
  exact (List.pairwise_append.1 this).2.2 s.prevState (by simp) t (by simp)

/-- The section that publishes IMU measurements, completely: it never throws; it reads past the end of the buffer exactly
when no measurement later than the previous state time has been received; else it publishes the measurements that cover
the interval. -/
theorem publishS2s_spec (cfg : Cfg A K) (s : FE A K) (hr : Reach cfg s) {msg : Cloud} {t : Int}
    (hp : s.phase = .imu msg t) (hi : s.initialised = true) :
    ((∀ x ∈ s.ghost.imu, x.stamp ≤ s.prevState) ∧ publishS2s msg t s = (.ub, s)) ∨
    ((∃ x ∈ s.ghost.imu, s.prevState < x.stamp) ∧ ∃ ms s', publishS2s msg t s = (.ok (), s') ∧
      Covers s.ghost.imu s.prevState t ms ∧ s'.pubs = s.pubs ++ [.imuS2s s.prevState t ms] ∧
      s'.imuBuffer <:+ s.ghost.imu ∧ s'.imuBuffer.head? = ms.head?) := by
  have hc := ci cfg s hr
  have hii := ii cfg s hr
  obtain ⟨hlt, hlast⟩ := prev_lt hc hp hi
  have hso : StrictlyOrdered s.imuBuffer := hii.ordered.sublist hii.suffix.sublist
  obtain ⟨first, hf, hle⟩ := hii.front (by intro h0; rw [h0] at hlast; simp at hlast)
  obtain ⟨others, hb⟩ : ∃ others, s.imuBuffer = first :: others := by
    cases hbb : s.imuBuffer with
    | nil => rw [hbb] at hf; simp at hf
    | cons x xs => rw [hbb] at hf; exact ⟨xs, by simpa using hf⟩
  obtain ⟨pre, hpre⟩ := hii.suffix
  unfold publishS2s
  rcases selectImu_cases s.prevState t hlt s.imuBuffer (hso.imp (fun h => le_of_lt h)) first others hb hle with
    ⟨hu, hall⟩ | ⟨before, f, after, e1, e2, e3, e4, e5⟩
  · left
    refine ⟨?_, ?_⟩
    · intro x hx
      rw [← hpre] at hx
      rcases List.mem_append.1 hx with hx | hx
      · have ho := hii.ordered
        rw [← hpre] at ho
        have := (List.pairwise_append.1 ho).2.2 x hx first (by rw [hb]; simp)
        omega
      · exact hall x hx
    · rw [hb] at hu ⊢
      dsimp only
      rw [if_neg (by omega), hu]
  · right
    refine ⟨?_, f :: after.filter (fun x => decide (x.stamp < t)), { s with
          imuBuffer := deleteOld f.stamp s.imuBuffer
          phase := .bias msg t
          ghost := { s.ghost with states := s.ghost.states ++ [t] } }.emit
            (.imuS2s s.prevState t (f :: after.filter (fun x => decide (x.stamp < t)))), ?_, ?_, rfl, ?_, ?_⟩
    · obtain ⟨x, hx⟩ := List.exists_mem_of_ne_nil _ e2
      exact ⟨x, by rw [← hpre, e1]; simp [hx], e4 x hx⟩
    · rw [hb] at e5 ⊢
      dsimp only
      rw [if_neg (by omega), e5]
    · exact ⟨pre ++ before, f, after, by rw [← hpre, e1]; simp, e3, e4, rfl⟩
    · simp only [FE.emit, e1, deleteOld_split before f after (e1 ▸ hso)]
      exact ⟨pre ++ before, by rw [← hpre, e1]; simp⟩
    · simp only [FE.emit, e1, deleteOld_split before f after (e1 ▸ hso)]
      rfl

/-- C25. The arrays are published for consecutive states. -/
theorem C25_intervals (cfg : Cfg A K) (s : FE A K) (hr : Reach cfg s) :
    s.pubs.filterMap intervalOf = (sentStates s).zip (sentStates s).tail := by
  have h := pi cfg s hr
  rw [h.intervals]
  have e : sentStates s = s.ghost.states := h.sent
  rw [e]

/-- C25. An array for the interval from `a` to `b` consists of the last measurement with stamp at most `a` followed by all
measurements with stamp in `(a, b)`, among the measurements received when it is published. -/
theorem C25_content_partial (cfg : Cfg A K) (s s' : FE A K) (hr : Reach cfg s) (a b : Int) (ms : List (Stamped A))
    (hs : step cfg .go s = some (.ok (), s')) (hp : s'.pubs = s.pubs ++ [.imuS2s a b ms]) :
    Covers s.ghost.imu a b ms ∧ (sentStates s).getLast? = some a ∧ a < b := by
  have hm := move_of_step cfg .go s s' trivial hs
  have key : ∀ {p : Pub A K} {ps : List (Pub A K)}, s.pubs ++ [p] = s.pubs ++ ps → ps = [p] := by
    intro p ps h; exact (List.append_cancel_left h).symm
  have no : ∀ {ps : List (Pub A K)}, s.pubs = s.pubs ++ ps → ps = [] := by
    intro ps h; simpa using h
  cases hm with
  | s2s msg prev t first others m l hph hc' hin hb hle hsel =>
    have e := key hp
    obtain ⟨rfl, rfl, rfl⟩ : a = s.prevState ∧ b = t ∧ ms = m :: l := by simpa using e
    obtain ⟨hlt, hlast⟩ := prev_lt (ci cfg s hr) hph hin
    have es : sentStates s = s.ghost.states := (pi cfg s hr).sent
    refine ⟨?_, by rw [es]; exact hlast, hlt⟩
    rcases publishS2s_spec cfg s hr hph hin with ⟨_, hu⟩ | ⟨_, ms', s'', ho, hcov, hpub, _⟩
    · unfold publishS2s at hu
      rw [hb] at hu hsel
      dsimp only at hu
      rw [if_neg (by omega), hsel] at hu
      simp at hu
    · unfold publishS2s at ho
      have hsel' := hsel
      rw [hb] at hsel'
      simp only [hb] at ho
      rw [if_neg (by omega), hsel'] at ho
      obtain rfl := (Prod.mk.inj ho).2
      have := key hpub
      have : ms' = m :: l := by simpa using this
      rw [← this]
      exact hcov
  | imuQuiet m _ _ _ _ => exact absurd (no hp) (by simp)
  | imuOdometry m p _ _ _ _ => exact absurd (key hp) (by simp)
  | optimisedA t m _ _ _ _ => exact absurd (no hp) (by simp)
  | optimisedB p last _ _ => exact absurd (no hp) (by simp)
  | barometer p _ _ ht =>
    obtain ⟨bb, bt, ps, rfl, hps⟩ := ht.frame
    have : ps = [.imuS2s a b ms] := List.append_cancel_left hp
    rcases hps with rfl | ⟨p, rfl⟩
    · simp at this
    · simp at this
  | stereoQuiet t _ _ => exact absurd (no hp) (by simp)
  | stereoSent t _ ho => exact absurd (key hp) (by simp)
  | cloudFirst msg _ hc' h0 hlt => exact absurd (no hp) (by simp)
  | cloudNext msg prev _ hc' h0 hlt => exact absurd (no hp) (by simp)
  | selectWait msg prev _ hc' _ _ => exact absurd (no hp) (by simp)
  | selectFrame msg prev f rest _ hc' _ hf hr hle hlt _ =>
    split at hp
    · exact absurd (key hp) (by simp)
    · exact absurd (no hp) (by simp)
  | selectStart msg prev l _ hc' hl _ => exact absurd (no hp) (by simp)
  | initWait msg prev t _ hc' hin hwt => exact absurd (no hp) (by simp)
  | initial msg prev t m _ hc' hint => exact absurd (key hp) (by simp)
  | biasKnown msg prev t _ hc' _ _ _ => exact absurd (no hp) (by simp)
  | deskew msg prev t _ hc' => exact absurd (key hp) (by simp)
  | finishBaro msg prev t _ hc' hon ht =>
    obtain ⟨bb, bt, ps, rfl, hps⟩ := ht.frame
    have : ps = [.imuS2s a b ms] := List.append_cancel_left hp
    rcases hps with rfl | ⟨p, rfl⟩
    · simp at this
    · simp at this
  | finish msg prev t _ hc' hoff => exact absurd (no hp) (by simp)

/-- C25. The check that a measurement before the previous state is buffered never fails, and the only way in which the
section can fail is to read past the end of the buffer, when no measurement later than the previous state time was
received. -/
theorem C25_failure_iff_partial (cfg : Cfg A K) (s : FE A K) (hr : Reach cfg s) {msg : Cloud} {t : Int}
    (hp : s.phase = .imu msg t) (hi : s.initialised = true) :
    (publishS2s msg t s).1 ≠ .throws ∧
    ((publishS2s msg t s).1 = .ub ↔ ∀ x ∈ s.ghost.imu, x.stamp ≤ s.prevState) := by
  rcases publishS2s_spec cfg s hr hp hi with ⟨h1, h2⟩ | ⟨⟨x, hx, hlt⟩, ms, s', ho, _⟩
  · rw [h2]; exact ⟨by simp, by simp only [true_iff]; exact h1⟩
  · rw [ho]
    refine ⟨by simp, ?_⟩
    simp only [reduceCtorEq, false_iff]
    intro h
    have := h x hx
    omega

/-! ### C26 -/

/-- C26. The running integration consists of exactly the measurements received with stamps later than the stamp of the
latest biases, each once and in order, each with the time since the one before; the durations add up. (While the callback
that stores new biases runs, it alone can touch the integration.) -/
theorem C26_integration (cfg : Cfg A K) (s : FE A K) (hr : Reach cfg s) (hb : s.optBusy = false) :
    (s.biasStamp = 0 ∧ s.preint = none) ∨
    (0 < s.biasStamp ∧ ∃ p, s.preint = some p ∧
      p.map Prod.fst = s.ghost.imu.filter (fun x => decide (s.biasStamp < x.stamp)) ∧
      p = steps s.biasStamp (p.map Prod.fst) ∧
      ∃ last, s.ghost.imu.getLast? = some last ∧ (p.map Prod.snd).sum = last.stamp - s.biasStamp) := by
  have h := ii cfg s hr
  have hp := h.preOk hb
  rcases h.biasOk with hz | ⟨h0, hle⟩
  · left; rw [hz, if_pos rfl] at hp; exact ⟨hz, hp⟩
  · right
    rw [if_neg (by omega)] at hp
    refine ⟨h0, _, hp, steps_map_fst _ _, by rw [steps_map_fst], ?_⟩
    rw [h.last] at hle
    rcases List.eq_nil_or_concat s.ghost.imu with he | ⟨l', m, he⟩
    · rw [he] at hle; simp [lastStamp] at hle; omega
    · rw [List.concat_eq_append] at he
      refine ⟨m, by rw [he]; simp, ?_⟩
      rw [steps_sum, later_last h.ordered _ h0 hle, he]
      simp [lastStamp]

theorem tryPublish_bias (s : FE A K) : (tryPublish s).2.biasStamp = s.biasStamp := by
  unfold tryPublish
  split
  · rfl
  · split
    · rfl
    · split
      · rfl
      · split
        · split
          · rfl
          · rfl
          · split
            · split <;> rfl
            · rfl
        · rfl

theorem go_bias (cfg : Cfg A K) (s : FE A K) (r : Outcome Unit × FE A K) (h : goStep cfg s = some r) :
    r.2.biasStamp = s.biasStamp := by
  unfold goStep at h
  split at h
  · simp at h
  · simp at h
  · obtain rfl := Option.some.inj h
    unfold selectState
    split
    · split
      · rfl
      · split
        · dsimp only; split <;> rfl
        · rfl
    · rfl
  · split at h
    · obtain rfl := Option.some.inj h
      unfold publishS2s
      split
      · rfl
      · split
        · rfl
        · split <;> rfl
    · split at h
      · simp at h
      · obtain rfl := Option.some.inj h; rfl
  · obtain rfl := Option.some.inj h
    unfold publishInitial
    split <;> rfl
  · split at h
    · simp at h
    · obtain rfl := Option.some.inj h; rfl
  · obtain rfl := Option.some.inj h
    unfold deskewCloud
    dsimp only
    split
    · rfl
    · rfl
    · split <;> rfl
  · obtain rfl := Option.some.inj h
    rename_i msg t prev _ _
    unfold finishCloud
    by_cases hb : cfg.baro = true
    · simp only [hb, if_true]
      have := tryPublish_bias { s with
        baroTimes := s.baroTimes ++ [t]
        ghost := { s.ghost with baroStates := s.ghost.baroStates ++ [t] } }
      split
      · rename_i h; rw [h] at this; exact this
      · rename_i h; rw [h] at this; exact this
      · rename_i h; rw [h] at this; exact this
    · simp only [hb]; rfl

/-- C26. The stamp of the latest biases is that of the last optimised odometry message. -/
theorem C26_bias_stamp (cfg : Cfg A K) (ev : Ev A K) (s s' : FE A K) (ha : Admissible ev s)
    (hs : step cfg ev s = some (.ok (), s')) :
    s'.biasStamp = match ev with
      | .optimisedA t => t
      | _ => s.biasStamp := by
  cases ev with
  | optimisedA t =>
    simp only [step] at hs
    split at hs
    · simp at hs
    · have hs := Option.some.inj hs
      unfold optimisedA at hs
      dsimp only at hs
      split at hs
      · simp at hs
      · simp at hs
      · split at hs
        · obtain rfl := (Prod.mk.inj hs).2; rfl
        · simp at hs
  | imu m =>
    have hm := hs
    simp only [step] at hm
    split at hm
    · simp at hm
    · have hm := Option.some.inj hm
      unfold imuCallback at hm
      dsimp only at hm
      split at hm
      · obtain rfl := (Prod.mk.inj hm).2; rfl
      · split at hm
        · obtain rfl := (Prod.mk.inj hm).2; rfl
        · simp at hm
        · simp at hm
  | optimisedB =>
    simp only [step] at hs
    split at hs
    · have hs := Option.some.inj hs
      unfold optimisedB at hs
      split at hs
      · obtain rfl := (Prod.mk.inj hs).2; rfl
      · simp at hs
      · simp at hs
    · simp at hs
  | barometer p =>
    simp only [step] at hs
    split at hs
    · obtain ⟨bb, bt, ps, rfl, _⟩ := (tried_of _ _ (Option.some.inj hs)).frame
      rfl
    · simp at hs
  | stereo t =>
    simp only [step] at hs
    split at hs
    · have hs := Option.some.inj hs
      unfold stereoCallback at hs
      dsimp only at hs
      obtain rfl := (Prod.mk.inj hs).2
      split <;> rfl
    · simp at hs
  | cloud msg =>
    simp only [step] at hs
    split at hs
    · have hs := Option.some.inj hs
      unfold cloudArrives at hs
      split at hs
      · simp at hs
      · dsimp only at hs
        split at hs
        · obtain rfl := (Prod.mk.inj hs).2; rfl
        · obtain rfl := (Prod.mk.inj hs).2; rfl
    · simp at hs
  | go => exact go_bias cfg s _ hs

/-- C26. Integration itself never fails: with increasing stamps no step of length zero is handed to the integrator. -/
theorem C26_never_fails (cfg : Cfg A K) (s : FE A K) (hr : Reach cfg s) (m : Stamped A)
    (ha : Admissible (.imu m) s) : (imuCallback cfg m s).1 = .ok () := by
  have h := ii cfg s hr
  unfold imuCallback
  dsimp only
  split
  · rfl
  · rename_i p hp
    have hrec : record cfg.strict p m (m.stamp - s.lastPreint) = .ok (p ++ [(m, m.stamp - s.lastPreint)]) := by
      unfold record
      rw [if_neg]
      rintro ⟨_, hle⟩
      rw [h.last] at hle
      rcases List.eq_nil_or_concat s.ghost.imu with he | ⟨l', x, he⟩
      · rw [he] at hle; simp [lastStamp] at hle; have := ha.1; omega
      · rw [List.concat_eq_append] at he
        have := ha.2 x (by rw [he]; simp)
        rw [he] at hle; simp [lastStamp] at hle; omega
    rw [hrec]

/-! ### C24 -/

theorem IsReading.mono {received : List (Pressure K)} {t : Int} {p : Pressure K} (h : IsReading received t p)
    {all : List (Pressure K)} (hp : received <+: all) (ho : all.Pairwise (fun a b => a.stamp < b.stamp)) :
    IsReading all t p := by
  obtain ⟨more, rfl⟩ := hp
  rcases h with ⟨first, rest, rfl, h1, h2⟩ | ⟨before, a, b, after, rfl, h1, h2, h3⟩
  · refine .inl ⟨first, rest ++ more, rfl, ?_, h2⟩
    intro x hx
    have hf := h1 first (by simp)
    rcases List.mem_cons.1 hx with rfl | hx
    · exact hf
    · have := (List.pairwise_cons.1 ho).1 x hx
      omega
  · exact .inr ⟨before, a, b, after ++ more, by simp, h1, h2, h3⟩

/-- C24. Readings are published at most once per state, in state order, stamped exactly with the state times. -/
theorem C24_order_partial (cfg : Cfg A K) (s : FE A K) (hr : Reach cfg s) :
    (sentReadings s).map (fun p => p.stamp) <+: sentStates s ∧
    ((sentReadings s).map (fun p => p.stamp)).Pairwise (· < ·) := by
  have hb := bi cfg s hr
  have hq := hb.queue
  have hbs := bs cfg s hr
  have hc := ci cfg s hr
  have es : sentStates s = s.ghost.states := (pi cfg s hr).sent
  have h1 : (sentReadings s).map (fun p => p.stamp) <+: s.ghost.baroStates := ⟨s.baroTimes, hq⟩
  have h2 : s.ghost.baroStates <+: s.ghost.states := by
    unfold BS at hbs
    rw [hbs]
    split
    · unfold requested
      split
      · exact List.dropLast_prefix _
      · exact List.dropLast_prefix _
      · exact List.dropLast_prefix _
      · exact List.prefix_refl _
    · exact List.nil_prefix
  rw [es]
  exact ⟨h1.trans h2, (hbs.increasing hc).sublist h1.sublist⟩

/-- C24. Every reading is obtained from the two received measurements around the state time, or is the first measurement
if all are later. -/
theorem C24_value_partial (cfg : Cfg A K) (s : FE A K) (hr : Reach cfg s) (p : Pressure K) (hp : p ∈ sentReadings s) :
    IsReading s.ghost.baro p.stamp p := by
  have hb := bi cfg s hr
  obtain ⟨received, h1, h2⟩ := hb.reading p hp
  exact h2.mono h1 hb.ordered

/-- What `tryPublish` does with strictly increasing measurements. -/
theorem tryPublish_ok [LinearOrder K] [IsStrictOrderedRing K] (s : FE A K) (hb : s.baroBuffer ≠ [])
    (ho : s.baroBuffer.Pairwise (fun a b => a.stamp < b.stamp)) :
    (tryPublish s).1 = .ok () ∧
    ∀ t times, s.baroTimes = t :: times → (∃ x ∈ s.baroBuffer, t < x.stamp) → (tryPublish s).2.baroTimes = times := by
  unfold tryPublish
  split
  · rename_i h0
    exact ⟨rfl, fun t times ht => by rw [h0] at ht; simp at ht⟩
  · rename_i t times ht
    split
    · rename_i h0; exact absurd h0 hb
    · rename_i first rest hbuf
      split
      · refine ⟨rfl, fun t' times' ht' _ => ?_⟩
        rw [ht] at ht'
        exact (List.cons.inj ht').2
      · rename_i hle
        split
        · rename_i hd
          have hlast : rest.getLast? = some ((first :: rest).getLast (by simp)) := by
            rw [hbuf] at hd
            cases rest with
            | nil => simp at hd
            | cons y ys => simp [List.getLast?_eq_getLast_of_ne_nil]
          obtain ⟨before, x, y, after, h1, h2, h3, h4, h5⟩ :=
            dropOldBaro_cases t s.baroBuffer first rest hbuf (by omega) _ hlast hd.2
          rw [h4]
          dsimp only
          have hxy : x.stamp < y.stamp := by
            rw [h1] at ho
            exact (List.pairwise_cons.1 (List.pairwise_append.1 ho).2.1).1 y (by simp)
          have hint := C29_pressure x y t
          cases hp : interpolatePressure x y t with
          | throws => exact absurd (hint.1.1 hp) (by simp; omega)
          | ub =>
            exfalso
            unfold interpolatePressure at hp
            cases hi : interpolate x.pressure y.pressure x.stamp y.stamp t with
            | ub => exact absurd hi (C29_no_ub _ _ _ _ _)
            | throws => rw [hi] at hp; simp at hp
            | ok v =>
              rw [hi, Outcome.bind_ok] at hp
              cases hj : interpolate x.variance y.variance x.stamp y.stamp t with
              | ub => exact absurd hj (C29_no_ub _ _ _ _ _)
              | throws => rw [hj] at hp; simp at hp
              | ok w => rw [hj] at hp; simp at hp
          | ok p =>
            refine ⟨rfl, fun t' times' ht' _ => ?_⟩
            rw [ht] at ht'
            exact (List.cons.inj ht').2
        · rename_i hd
          refine ⟨rfl, fun t' times' ht' hx => ?_⟩
          exfalso
          obtain ⟨x, hx, hlt⟩ := hx
          rw [ht] at ht'
          obtain rfl := (List.cons.inj ht').1
          rw [hbuf] at hx hd ho
          apply hd
          have hmem : x ∈ rest := by
            rcases List.mem_cons.1 hx with rfl | hx
            · omega
            · exact hx
          refine ⟨by cases rest with | nil => simp at hmem | cons _ _ => simp, ?_⟩
          have hl : x.stamp ≤ ((first :: rest).getLast (by simp)).stamp := by
            rcases List.eq_nil_or_concat rest with he | ⟨l', z, he⟩
            · rw [he] at hmem; simp at hmem
            · rw [List.concat_eq_append] at he
              subst he
              have : (first :: (l' ++ [z])).getLast (by simp) = z := by simp
              rw [this]
              rcases List.mem_append.1 hmem with hm | hm
              · have := (List.pairwise_cons.1 ho).2
                exact le_of_lt ((List.pairwise_append.1 this).2.2 x hm z (by simp))
              · have : x = z := by simpa using hm
                rw [this]
          omega

/-- C24. With a measurement received, requesting a reading never fails; receiving a measurement never fails. -/
theorem C24_never_fails_partial [LinearOrder K] [IsStrictOrderedRing K] (cfg : Cfg A K) (s : FE A K) (hr : Reach cfg s) :
    (∀ p, Admissible (.barometer p) s → (baroCallback cfg p s).1 = .ok ()) ∧
    (∀ msg t, s.ghost.baro ≠ [] → (finishCloud cfg msg t s).1 = .ok ()) := by
  have hb := bi cfg s hr
  have ho : s.baroBuffer.Pairwise (fun a b => a.stamp < b.stamp) := hb.ordered.sublist hb.suffix.sublist
  refine ⟨?_, ?_⟩
  · intro p ha
    refine (tryPublish_ok _ (by simp) ?_).1
    refine List.pairwise_append.2 ⟨ho, by simp, fun a ha' b hb' => ?_⟩
    have := ha a (hb.suffix.subset ha')
    rw [List.mem_singleton.1 hb']
    cases cfg.overwriteVariance <;> exact this
  · intro msg t hne
    unfold finishCloud
    by_cases hon : cfg.baro = true
    · simp only [hon, if_true]
      have := (tryPublish_ok { s with
        baroTimes := s.baroTimes ++ [t]
        ghost := { s.ghost with baroStates := s.ghost.baroStates ++ [t] } } (hb.ne hne) ho).1
      split
      · rfl
      · rename_i h; rw [h] at this; simp at this
      · rename_i h; rw [h] at this; simp at this
    · simp only [hon]; rfl

/-- Barometer messages one after another. -/
def baroRun (cfg : Cfg A K) : List (Pressure K) → FE A K → FE A K
  | [], s => s
  | p :: ps, s => baroRun cfg ps (baroCallback cfg p s).2

/-- C24 (what holds of "no older state is left waiting"). Each further measurement serves one waiting state, so after as
many measurements later than the waiting states as there are waiting states, every requested reading has been sent. -/
theorem C24_catches_up_partial [LinearOrder K] [IsStrictOrderedRing K] (cfg : Cfg A K) (hon : cfg.baro = true)
    (ps : List (Pressure K)) (s : FE A K) (hr : Reach cfg s) (ho : ps.Pairwise (fun a b => a.stamp < b.stamp))
    (hnew : ∀ p ∈ ps, ∀ x ∈ s.ghost.baro, x.stamp < p.stamp) (hlate : ∀ p ∈ ps, ∀ t ∈ s.baroTimes, t < p.stamp)
    (hlen : s.baroTimes.length ≤ ps.length) (hidle : s.phase = .idle) :
    Reach cfg (baroRun cfg ps s) ∧
    (sentReadings (baroRun cfg ps s)).map (fun p => p.stamp) = sentStates (baroRun cfg ps s) ∧
    sentStates (baroRun cfg ps s) = sentStates s := by
  induction ps generalizing s with
  | nil =>
    refine ⟨hr, ?_, rfl⟩
    have h0 : s.baroTimes = [] := List.length_eq_zero_iff.1 (by simpa using hlen)
    have hq := (bi cfg s hr).queue
    have hbs := bs cfg s hr
    unfold BS at hbs
    rw [h0, List.append_nil, hbs, hon, if_pos rfl, hidle] at hq
    have es : sentStates s = s.ghost.states := (pi cfg s hr).sent
    simp only [baroRun]
    rw [es]
    exact hq
  | cons p ps ih =>
    have hadm : Admissible (.barometer p) s := hnew p (by simp)
    have hok := (C24_never_fails_partial cfg s hr).1 p hadm
    obtain ⟨s1, h1⟩ : ∃ s1, baroCallback cfg p s = (.ok (), s1) := ⟨(baroCallback cfg p s).2, by rw [← hok]⟩
    have hst : step cfg (.barometer p) s = some (.ok (), s1) := by simp [step, hon, h1]
    have hr1 : Reach cfg s1 := .step hr hadm hst
    have htr := tried_of _ _ h1
    obtain ⟨bb, bt, pubs, e1, hpubs⟩ := htr.frame
    have hb := bi cfg s hr
    have hbo : s.baroBuffer.Pairwise (fun a b => a.stamp < b.stamp) := hb.ordered.sublist hb.suffix.sublist
    set p' := match cfg.overwriteVariance with | some v => { p with variance := v } | none => p with hp'
    have hps : p'.stamp = p.stamp := by rw [hp']; cases cfg.overwriteVariance <;> rfl
    have hserve := (tryPublish_ok { s with
        baroBuffer := s.baroBuffer ++ [p']
        ghost := { s.ghost with baro := s.ghost.baro ++ [p'] } } (by simp)
        (List.pairwise_append.2 ⟨hbo, by simp, fun a ha' b hb' => by
          have := hadm a (hb.suffix.subset ha')
          rw [List.mem_singleton.1 hb', hps]; exact this⟩)).2
    have hs1 : s1 = (baroCallback cfg p s).2 := by rw [h1]
    have htail : s1.baroTimes = s.baroTimes.tail := by
      cases ht : s.baroTimes with
      | nil =>
        have : (baroCallback cfg p s).2.baroTimes = [] := by
          unfold baroCallback tryPublish
          simp only [ht]
        rw [hs1, this]; rfl
      | cons t times =>
        have := hserve t times ht ⟨p', by simp, by rw [hps]; exact hlate p (by simp) t (by rw [ht]; simp)⟩
        rw [hs1]; exact this
    have hbaro : s1.ghost.baro = s.ghost.baro ++ [p'] := by rw [e1]; rfl
    have hphase : s1.phase = .idle := by rw [e1]; exact hidle
    have hsent : sentStates s1 = sentStates s := by
      have q1 : sentStates s1 = s1.ghost.states := (pi cfg s1 hr1).sent
      have q2 : sentStates s = s.ghost.states := (pi cfg s hr).sent
      rw [q1, q2, e1]
    obtain ⟨i1, i2, i3⟩ := ih s1 hr1 (List.pairwise_cons.1 ho).2
      (by
        intro q hq x hx
        rw [hbaro] at hx
        rcases List.mem_append.1 hx with hx | hx
        · exact hnew q (by simp [hq]) x hx
        · rw [List.mem_singleton.1 hx, hps]
          exact (List.pairwise_cons.1 ho).1 q hq)
      (by
        intro q hq t ht
        rw [htail] at ht
        exact hlate q (by simp [hq]) t (List.mem_of_mem_tail ht))
      (by rw [htail]; simp at hlen ⊢; omega) hphase
    have er : baroRun cfg (p :: ps) s = baroRun cfg ps s1 := by rw [baroRun, ← hs1]
    rw [er]
    exact ⟨i1, i2, by rw [i3, hsent]⟩

/-! ### C73 -/

/-- C73. The messages of one state carry the same stamp: deskewed pointclouds are stamped with the state times, one per
state, in order (the state whose pointcloud callback is still running may lack its pointcloud); barometer readings are
stamped with state times (`C24_order_partial`); when only frames of graph states are passed on, stereo frames are stamped
with state times (or the state time selected but not sent yet). -/
theorem C73_same_stamp (cfg : Cfg A K) (s : FE A K) (hr : Reach cfg s) (hi : s.phase = .idle) :
    s.pubs.filterMap cloudTimeOf = sentStates s ∧
    (cfg.onlyGraphFrames = true → (s.pubs.filterMap stereoTimeOf).Sublist (sentStates s)) := by
  have h := pi cfg s hr
  have es : sentStates s = s.ghost.states := h.sent
  rw [es]
  have h1 := h.clouds
  have h2 := h.stereo
  rw [hi] at h1 h2
  exact ⟨h1, fun hg => by simpa [pending] using h2 hg⟩

/-! ### C74 -/

/-- Any number of further sections. -/
inductive Later (cfg : Cfg A K) : FE A K → FE A K → Prop where
  | refl (s) : Later cfg s s
  | step {s s' s'' : FE A K} {ev : Ev A K} : Later cfg s s' → Admissible ev s' → step cfg ev s' = some (.ok (), s'') →
      Later cfg s s''

theorem c74_move (cfg : Cfg A K) (s s' : FE A K) (hp : s.preint ≠ none) (hm : Move cfg s s') :
    s'.preint ≠ none ∧ ∃ more, s'.ghost.imu.map (fun x => x.stamp) = s.ghost.imu.map (fun x => x.stamp) ++ more ∧
      s'.pubs.filterMap odometryOf = s.pubs.filterMap odometryOf ++ more := by
  cases hm with
  | imuQuiet m _ h _ _ => exact absurd h hp
  | imuOdometry m p _ _ _ _ => exact ⟨by simp [FE.emit], [m.stamp], by simp [FE.emit], by simp [FE.emit, odometryOf]⟩
  | optimisedA t m _ _ _ _ => exact ⟨hp, [], by simp, by simp⟩
  | optimisedB p last _ _ => exact ⟨by simp, [], by simp, by simp⟩
  | barometer p _ _ ht =>
    obtain ⟨bb, bt, ps, rfl, hps⟩ := ht.frame
    refine ⟨hp, [], by simp, ?_⟩
    rcases hps with rfl | ⟨q, rfl⟩
    · simp
    · simp [List.filterMap_cons, odometryOf]
  | stereoQuiet t _ _ => exact ⟨hp, [], by simp, by simp⟩
  | stereoSent t _ ho => exact ⟨hp, [], by simp [FE.emit], by simp [FE.emit, List.filterMap_cons, odometryOf]⟩
  | cloudFirst msg _ hc' h0 hlt => exact ⟨hp, [], by simp, by simp⟩
  | cloudNext msg prev _ hc' h0 hlt => exact ⟨hp, [], by simp, by simp⟩
  | selectWait msg prev _ hc' _ _ => exact ⟨hp, [], by simp, by simp⟩
  | selectFrame msg prev f rest _ hc' _ hf hr hle hlt _ =>
    split
    · exact ⟨hp, [], by simp [FE.emit], by simp [FE.emit, List.filterMap_cons, odometryOf]⟩
    · exact ⟨hp, [], by simp, by simp⟩
  | selectStart msg prev l _ hc' hl _ => exact ⟨hp, [], by simp, by simp⟩
  | s2s => exact ⟨hp, [], by simp [FE.emit], by simp [FE.emit, List.filterMap_cons, odometryOf]⟩
  | initWait msg prev t _ hc' hin hwt => exact ⟨hp, [], by simp, by simp⟩
  | initial => exact ⟨hp, [], by simp [FE.emit], by simp [FE.emit, List.filterMap_cons, odometryOf]⟩
  | biasKnown msg prev t _ hc' _ _ _ => exact ⟨hp, [], by simp, by simp⟩
  | deskew msg prev t _ hc' => exact ⟨hp, [], by simp [FE.emit], by simp [FE.emit, List.filterMap_cons, odometryOf]⟩
  | finishBaro msg prev t _ hc' hon ht =>
    obtain ⟨bb, bt, ps, rfl, hps⟩ := ht.frame
    refine ⟨hp, [], by simp, ?_⟩
    rcases hps with rfl | ⟨q, rfl⟩
    · simp
    · simp [List.filterMap_cons, odometryOf]
  | finish msg prev t _ hc' hoff => exact ⟨hp, [], by simp, by simp⟩

/-- C74. Once biases are known, every IMU message gives exactly one odometry message, stamped with its stamp, in order, and
nothing else gives one. -/
theorem C74_odometry (cfg : Cfg A K) (s s' : FE A K) (hp : s.preint ≠ none) (hl : Later cfg s s') :
    ∃ more, s'.ghost.imu.map (fun x => x.stamp) = s.ghost.imu.map (fun x => x.stamp) ++ more ∧
      s'.pubs.filterMap odometryOf = s.pubs.filterMap odometryOf ++ more := by
  suffices h : s'.preint ≠ none ∧ ∃ more, s'.ghost.imu.map (fun x => x.stamp) = s.ghost.imu.map (fun x => x.stamp) ++ more ∧
      s'.pubs.filterMap odometryOf = s.pubs.filterMap odometryOf ++ more from h.2
  induction hl with
  | refl => exact ⟨hp, [], by simp, by simp⟩
  | step _ ha hs ih =>
    obtain ⟨h1, m1, e1, e2⟩ := ih
    obtain ⟨h2, m2, e3, e4⟩ := c74_move cfg _ _ h1 (move_of_step cfg _ _ _ ha hs)
    exact ⟨h2, m1 ++ m2, by rw [e3, e1]; simp, by rw [e4, e2]; simp⟩

/-! ### C27 -/

theorem interpSearch_spec {A : Type} (interp : Stamped A → Stamped A → Int → Outcome (Stamped A)) (t : Int) (a : Stamped A)
    (rest : List (Stamped A)) (ha : a.stamp ≤ t) (hl : ∃ x ∈ rest, t ≤ x.stamp) :
    ∃ before x y after, a :: rest = before ++ x :: y :: after ∧ x.stamp ≤ t ∧ t ≤ y.stamp ∧
      interpSearch interp t a rest = interp x y t := by
  induction rest generalizing a with
  | nil => simp at hl
  | cons b rest ih =>
    unfold interpSearch
    by_cases hb : b.stamp < t
    · rw [if_pos hb]
      obtain ⟨x, hx, hle⟩ := hl
      have hx' : x ∈ rest := by
        rcases List.mem_cons.1 hx with rfl | h
        · omega
        · exact h
      obtain ⟨p, u, v, q, h1, h2, h3, h4⟩ := ih b (by omega) ⟨x, hx', hle⟩
      exact ⟨a :: p, u, v, q, by rw [h1]; rfl, h2, h3, h4⟩
    · rw [if_neg hb]
      exact ⟨[], a, b, rest, rfl, ha, by omega, rfl⟩

/-- C27. For a buffer in stamp order: the call throws iff fewer than two measurements are buffered or the time lies outside
the buffered range; otherwise the result is stamped `t` and is the interpolation between two neighbours around `t`:
angular velocity and linear acceleration lie on the line through the neighbours, covariances are those of a
neighbour. -/
theorem C27_interpolated {Q : Type} [DecidableEq Q] [LinearOrder K] [IsStrictOrderedRing K] (zeroQ : Q)
    (slerp : K → Q → Q → Q) (l : List (Stamped (ImuData K Q))) (ho : Ordered l) (t : Int) :
    (interpolatedImu (interpolateImu zeroQ slerp) l t = .throws ↔
      ¬ ∃ x y rest, l = x :: y :: rest ∧ x.stamp ≤ t ∧ ∃ z ∈ y :: rest, t ≤ z.stamp) ∧
    interpolatedImu (interpolateImu zeroQ slerp) l t ≠ .ub ∧
    ∀ m, interpolatedImu (interpolateImu zeroQ slerp) l t = .ok m → m.stamp = t ∧
      ∃ before a b after, l = before ++ a :: b :: after ∧ a.stamp ≤ t ∧ t ≤ b.stamp ∧
        (∀ i, ((b.stamp : K) - a.stamp) * m.data.angularVelocity i =
          ((b.stamp : K) - t) * a.data.angularVelocity i + ((t : K) - a.stamp) * b.data.angularVelocity i) ∧
        (∀ i, ((b.stamp : K) - a.stamp) * m.data.linearAcceleration i =
          ((b.stamp : K) - t) * a.data.linearAcceleration i + ((t : K) - a.stamp) * b.data.linearAcceleration i) ∧
        ∃ n ∈ [a, b], m.data.orientationCov = n.data.orientationCov ∧
          m.data.angularVelocityCov = n.data.angularVelocityCov ∧
          m.data.linearAccelerationCov = n.data.linearAccelerationCov ∧ m.data.frame = n.data.frame := by
  match l, ho with
  | [], _ => exact ⟨by simp [interpolatedImu], by simp [interpolatedImu], by simp [interpolatedImu]⟩
  | [_], _ => exact ⟨by simp [interpolatedImu], by simp [interpolatedImu], by simp [interpolatedImu]⟩
  | a :: b :: rest, ho =>
    have hlast : ((∃ z ∈ b :: rest, t ≤ z.stamp) ↔ t ≤ ((b :: rest).getLast (by simp)).stamp) := by
      constructor
      · rintro ⟨z, hz, hle⟩
        have ho' := (List.pairwise_cons.1 ho).2
        have key : ∀ (l : List (Stamped (ImuData K Q))) (hl : l ≠ []), Ordered l → ∀ z ∈ l, z.stamp ≤ (l.getLast hl).stamp := by
          intro l hl ho z hz
          rcases List.eq_nil_or_concat l with he | ⟨l', w, he⟩
          · exact absurd he hl
          · rw [List.concat_eq_append] at he
            subst he
            rw [List.getLast_append_singleton]
            rcases List.mem_append.1 hz with hz | hz
            · exact (List.pairwise_append.1 ho).2.2 z hz w (by simp)
            · rw [List.mem_singleton.1 hz]
        have := key (b :: rest) (by simp) ho' z hz
        omega
      · intro h
        exact ⟨_, List.getLast_mem (by simp), h⟩
    unfold interpolatedImu
    dsimp only
    by_cases hc : a.stamp > t ∨ ((b :: rest).getLast (by simp)).stamp < t
    · rw [if_pos hc]
      refine ⟨⟨fun _ => ?_, fun _ => rfl⟩, by simp, by simp⟩
      rintro ⟨x, y, r, e, h1, h2⟩
      obtain ⟨rfl, rfl, rfl⟩ : a = x ∧ b = y ∧ rest = r := by simpa using e
      rcases hc with hc | hc
      · omega
      · have := hlast.1 h2; omega
    · rw [if_neg hc]
      have hin : a.stamp ≤ t ∧ t ≤ ((b :: rest).getLast (by simp)).stamp := by
        constructor <;> by_contra hcon
        · exact hc (.inl (by omega))
        · exact hc (.inr (by omega))
      obtain ⟨p, x, y, q, h1, h2, h3, h4⟩ :=
        interpSearch_spec (interpolateImu zeroQ slerp) t a (b :: rest) hin.1 (hlast.2 hin.2)
      rw [h4]
      have hb : ¬ (t < x.stamp ∨ t > y.stamp) := by omega
      by_cases he : x.stamp = y.stamp
      · have e : interpolateImu zeroQ slerp x y t = .ok x := by
          unfold interpolateImu; rw [if_neg hb, if_pos he]
        rw [e]
        refine ⟨⟨by simp, fun h => absurd ⟨a, b, rest, rfl, hin.1, hlast.2 hin.2⟩ h⟩, by simp, ?_⟩
        intro m hm
        obtain rfl := Outcome.ok.inj hm
        have ht : x.stamp = t := by omega
        refine ⟨ht, p, x, y, q, h1, h2, h3, ?_, ?_, x, by simp, rfl, rfl, rfl, rfl⟩
        · intro i; rw [← he, ht]; ring
        · intro i; rw [← he, ht]; ring
      · unfold interpolateImu
        rw [if_neg hb, if_neg he]
        refine ⟨⟨by simp, fun h => absurd ⟨a, b, rest, rfl, hin.1, hlast.2 hin.2⟩ h⟩, by simp, ?_⟩
        intro m hm
        obtain rfl := Outcome.ok.inj hm
        have hne : ((y.stamp : K) - x.stamp) ≠ 0 := by
          have : ((x.stamp : Int) : K) < ((y.stamp : Int) : K) := Int.cast_lt.2 (by omega)
          intro h0; linarith
        have hdiv : ∀ u v : K, ((y.stamp : K) - x.stamp) *
            ((1 - ((t - x.stamp : Int) : K) / ((y.stamp - x.stamp : Int) : K)) * u +
              ((t - x.stamp : Int) : K) / ((y.stamp - x.stamp : Int) : K) * v) =
            ((y.stamp : K) - t) * u + ((t : K) - x.stamp) * v := by
          intro u v
          push_cast
          field_simp
          ring
        refine ⟨rfl, p, x, y, q, h1, h2, h3, fun i => hdiv _ _, fun i => hdiv _ _, ?_⟩
        by_cases hs : (((t - x.stamp : Int) : K) / ((y.stamp - x.stamp : Int) : K)) ≤ 1 / 2
        · exact ⟨x, by simp, by simp only [if_pos hs], by simp only [if_pos hs], by simp only [if_pos hs], by simp only [if_pos hs]⟩
        · exact ⟨y, by simp, by simp only [if_neg hs], by simp only [if_neg hs], by simp only [if_neg hs], by simp only [if_neg hs]⟩

/-! ### Runs -/

instance (ev : Ev A K) (s : FE A K) : Decidable (Admissible ev s) := by
  cases ev <;> unfold Admissible <;> infer_instance

/-- Runs a list of events; `none` if one is not admissible, cannot run or does not complete normally. -/
def runEvs (cfg : Cfg A K) : List (Ev A K) → FE A K → Option (FE A K)
  | [], s => some s
  | ev :: rest, s =>
    if Admissible ev s then
      match step cfg ev s with
      | some (.ok _, s') => runEvs cfg rest s'
      | _ => none
    else none

theorem reach_run (cfg : Cfg A K) (evs : List (Ev A K)) (s s' : FE A K) (hr : Reach cfg s)
    (h : runEvs cfg evs s = some s') : Reach cfg s' := by
  induction evs generalizing s with
  | nil => simp [runEvs] at h; rw [← h]; exact hr
  | cons ev rest ih =>
    simp only [runEvs] at h
    split at h
    · rename_i ha
      split at h
      · rename_i s1 hs; exact ih s1 (.step hr ha hs) h
      · simp at h
    · simp at h

/-- Interpolation of the demonstration: data of the first neighbour. -/
def demoInterp (a b : Stamped Nat) (t : Int) : Outcome (Stamped Nat) :=
  if t < a.stamp ∨ t > b.stamp then .throws else .ok { stamp := t, data := a.data }

def demoCfg : Cfg Nat ℚ :=
  { stereo := true, onlyGraphFrames := true, baro := true, interp := demoInterp, validImu := fun _ => true }

def demoImu (t : Int) : Ev Nat ℚ := .imu { stamp := t * 1000, data := t.toNat }

def demoBaro (t : Int) (v : ℚ) : Ev Nat ℚ := .barometer { stamp := t * 1000, frame := "b", pressure := v, variance := 1 }

/-- Two states (the first at a stereo frame), with IMU and barometer messages in between. -/
def demoEvs : List (Ev Nat ℚ) :=
  [demoBaro 90 10, demoImu 100, demoImu 110, .cloud { usec := 111, sweep := 5000 }, .stereo 112345, demoImu 120,
    .cloud { usec := 121, sweep := 5000 }, .go, .go, .go, .optimisedA 112000, .optimisedB, .go, .go, .go,
    demoBaro 122 30, demoImu 130, .stereo 135000, .cloud { usec := 131, sweep := 5000 }, .go, .go, .go, .go, demoImu 141, .go]

def demoFinal : Option (FE Nat ℚ) := runEvs demoCfg demoEvs {}

theorem demo_runs : demoFinal.isSome = true := by decide +kernel

theorem demo_reach : Reach demoCfg (demoFinal.get demo_runs) :=
  reach_run demoCfg demoEvs {} _ .init (Option.some_get demo_runs).symm

/-- The run has two states, two readings, one IMU array and two pointclouds, no callback is running, and biases are known:
the hypotheses of the theorems above hold and their conclusions are not about empty lists. -/
example : demoFinal.map (fun s => (sentStates s, (sentReadings s).map (fun p => (p.stamp, p.pressure)),
    s.pubs.filterMap intervalOf, s.pubs.filterMap cloudTimeOf)) =
    some ([112000, 121000], [(112000, 95 / 4), (121000, 235 / 8)], [(112000, 121000)], [112000, 121000]) := by
  decide +kernel

example : demoFinal.map (fun s => (s.phase, s.preint.isSome, s.optBusy)) = some (.idle, true, false) := by decide +kernel

example : demoFinal.map (fun s => s.pubs.filterMap odometryOf) = some [130000, 141000] := by decide +kernel

/-- Before the IMU array of `demoEvs` is published: hypotheses of `C25_failure_iff_partial`. -/
example : (runEvs demoCfg (demoEvs.take 20) {}).map (fun s => (s.phase, s.initialised, s.prevState)) =
    some (.imu { usec := 131, sweep := 5000 } 121000, true, 112000) := by decide +kernel

/-- A run that ends in a section that does not complete normally. -/
def runThen (cfg : Cfg Nat ℚ) (evs : List (Ev Nat ℚ)) (ev : Ev Nat ℚ) : Option (Outcome Unit) :=
  (runEvs cfg evs {}).bind (fun s => if Admissible ev s then (step cfg ev s).map (fun r => r.1) else none)

theorem runThen_spec {cfg : Cfg Nat ℚ} {evs : List (Ev Nat ℚ)} {ev : Ev Nat ℚ} {o : Outcome Unit}
    (h : runThen cfg evs ev = some o) : ∃ s s', Reach cfg s ∧ Admissible ev s ∧ step cfg ev s = some (o, s') := by
  unfold runThen at h
  cases hr : runEvs cfg evs {} with
  | none => rw [hr] at h; simp at h
  | some s =>
    rw [hr] at h
    simp only [Option.bind_some] at h
    split at h
    · rename_i ha
      cases hs : step cfg ev s with
      | none => rw [hs] at h; simp at h
      | some r =>
        rw [hs] at h
        have : r.1 = o := by simpa using h
        exact ⟨s, r.2, reach_run cfg evs {} s .init hr, ha, by rw [hs, ← this]⟩
    · simp at h

/-- The run up to the end of the first state, without a barometer message. -/
def dryEvs : List (Ev Nat ℚ) :=
  [demoImu 100, demoImu 110, .cloud { usec := 111, sweep := 5000 }, .stereo 112345, demoImu 120,
    .cloud { usec := 121, sweep := 5000 }, .go, .go, .go, .optimisedA 112000, .optimisedB, .go, .go]

/-- C24 fails: if a state is complete before any barometer message has arrived, the empty buffer is accessed. -/
theorem C24_fails_no_measurement : ∃ (cfg : Cfg Nat ℚ) (s s' : FE Nat ℚ), Reach cfg s ∧
    step cfg .go s = some (.ub, s') := by
  have h : runThen demoCfg dryEvs .go = some .ub := by decide +kernel
  obtain ⟨s, s', h1, _, h2⟩ := runThen_spec h
  exact ⟨demoCfg, s, s', h1, h2⟩

/-- Two states wait for a barometer measurement, then one arrives that is later than both. -/
def waitEvs : List (Ev Nat ℚ) :=
  [demoBaro 90 10] ++ dryEvs ++ [.go, demoImu 130, .stereo 135000, .cloud { usec := 131, sweep := 5000 }, .go, .go, .go, .go,
    .go, demoBaro 150 30]

theorem wait_runs : (runEvs demoCfg waitEvs {}).isSome = true := by decide +kernel

/-- C24 fails: a state is left waiting although a later measurement has arrived. -/
theorem C24_fails_left_waiting : ∃ (cfg : Cfg Nat ℚ) (s : FE Nat ℚ), Reach cfg s ∧ s.phase = .idle ∧
    ∃ t ∈ sentStates s, ∃ x ∈ s.ghost.baro, ∃ y ∈ s.ghost.baro, x.stamp < t ∧ t < y.stamp ∧
      t ∉ (sentReadings s).map (fun p => p.stamp) := by
  refine ⟨demoCfg, (runEvs demoCfg waitEvs {}).get wait_runs,
    reach_run demoCfg waitEvs {} _ .init (Option.some_get wait_runs).symm, by decide +kernel, 121000, by decide +kernel,
    ⟨90000, "b", 10, 1⟩, by decide +kernel, ⟨150000, "b", 30, 1⟩, by decide +kernel, by decide, by decide, by decide +kernel⟩

/-- C25 fails: if no IMU measurement later than the previous state has arrived yet, the code reads past the end of the
buffer. -/
theorem C25_fails_reads_past_end : ∃ (cfg : Cfg Nat ℚ) (s s' : FE Nat ℚ), Reach cfg s ∧
    step cfg .go s = some (.ub, s') := by
  have h : runThen demoCfg [demoBaro 90 10, demoImu 100, demoImu 112, .cloud { usec := 111, sweep := 0 }, .stereo 112345,
      .cloud { usec := 121, sweep := 0 }, .go, .go, .go, .optimisedA 112000, .optimisedB, .go, .go, .go, .stereo 135000,
      .cloud { usec := 131, sweep := 0 }, .go] .go = some .ub := by decide +kernel
  obtain ⟨s, s', h1, _, h2⟩ := runThen_spec h
  exact ⟨demoCfg, s, s', h1, h2⟩

/-! ### C75 -/

/-- The state is about to deskew the sweep `prev`, of which every instant lies between two received measurements; the
next step throws, and no result is published. -/
structure DeskewThrows (cfg : Cfg Nat ℚ) (s : FE Nat ℚ) (msg prev : Cloud) (t : Int) : Prop where
  reach : Reach cfg s
  phase : s.phase = .deskew msg t
  prevCloud : s.prevCloud = some prev
  sweep : 0 < prev.sweep
  before : ∃ m ∈ s.ghost.imu, m.stamp ≤ t
  after : ∃ m ∈ s.ghost.imu, prev.stop ≤ m.stamp
  throws : ∃ s', step cfg .go s = some (.throws, s') ∧ s'.pubs = s.pubs

def coincideEvs : List (Ev Nat ℚ) :=
  [demoBaro 90 10, demoImu 100, demoImu 110, .cloud { usec := 111, sweep := 5000 }, .stereo 112345, demoImu 120,
    .cloud { usec := 120, sweep := 5000 }, .go, .go, .go, .optimisedA 112000, .optimisedB, .go, .go, .go, demoImu 130,
    .stereo 135000, .cloud { usec := 130, sweep := 5000 }, .go, .go, .go]

theorem coincide_runs : (runEvs demoCfg coincideEvs {}).isSome = true := by decide +kernel

/-- What the step of a run's final state does. -/
theorem throws_of {cfg : Cfg Nat ℚ} {s : FE Nat ℚ}
    (h : (step cfg .go s).map (fun r => (r.1, r.2.pubs)) = some (.throws, s.pubs)) :
    ∃ s', step cfg .go s = some (.throws, s') ∧ s'.pubs = s.pubs := by
  cases hs : step cfg .go s with
  | none => rw [hs] at h; simp at h
  | some r =>
    rw [hs] at h
    simp only [Option.map_some, Option.some.injEq, Prod.mk.injEq] at h
    exact ⟨r.2, by rw [← h.1], h.2⟩

/-- C75 fails: the pointcloud callback throws if an IMU measurement is stamped exactly like a pointcloud, because GTSAM
refuses to integrate over an interval of length zero. -/
theorem C75_fails_stamp_coincidence : ∃ (cfg : Cfg Nat ℚ) (s : FE Nat ℚ) (msg prev : Cloud) (t : Int),
    DeskewThrows cfg s msg prev t ∧ s.initialised = true ∧ ∃ m ∈ s.ghost.imu, m.stamp = prev.start :=
  ⟨demoCfg, (runEvs demoCfg coincideEvs {}).get coincide_runs, { usec := 130, sweep := 5000 }, { usec := 120, sweep := 5000 },
    120000,
    ⟨reach_run demoCfg coincideEvs {} _ .init (Option.some_get _).symm, by decide +kernel, by decide +kernel, by decide +kernel,
      by decide +kernel, by decide +kernel, throws_of (by decide +kernel)⟩, by decide +kernel, by decide +kernel⟩

def lateStartEvs : List (Ev Nat ℚ) :=
  [demoBaro 90 10, demoImu 112, demoImu 115, .cloud { usec := 111, sweep := 5000 }, .stereo 113345,
    demoImu 120, .cloud { usec := 121, sweep := 5000 }, .go, .go, .go, .optimisedA 113000, .optimisedB, .go]

theorem lateStart_runs : (runEvs demoCfg lateStartEvs {}).isSome = true := by decide +kernel

/-- C75 fails: with a stereo frame between the start of the first sweep and the first measurement, the first state is
accepted, but the integration over the first sweep throws, although measurements surround the state time and reach beyond
the end of the sweep and none is stamped like its start or end. -/
theorem C75_fails_first_sweep : ∃ (cfg : Cfg Nat ℚ) (s : FE Nat ℚ) (msg prev : Cloud) (t : Int),
    DeskewThrows cfg s msg prev t ∧ s.initialised = false ∧
    ∀ m ∈ s.ghost.imu, m.stamp ≠ prev.start ∧ m.stamp ≠ prev.stop :=
  ⟨demoCfg, (runEvs demoCfg lateStartEvs {}).get lateStart_runs, { usec := 121, sweep := 5000 }, { usec := 111, sweep := 5000 },
    113000,
    ⟨reach_run demoCfg lateStartEvs {} _ .init (Option.some_get _).symm, by decide +kernel, by decide +kernel,
      by decide +kernel, by decide +kernel, by decide +kernel, throws_of (by decide +kernel)⟩, by decide +kernel,
    by decide +kernel⟩

/-! ### C76 -/

/-- C76. If a measurement not earlier than the end of the interval had been received when its array was published, the array
contains every measurement of the interval that is ever received. -/
theorem C76_complete_partial (cfg : Cfg A K) (s s' s'' : FE A K) (hr : Reach cfg s) (a b : Int) (ms : List (Stamped A))
    (hs : step cfg .go s = some (.ok (), s')) (hp : s'.pubs = s.pubs ++ [.imuS2s a b ms])
    (hx : ∃ x ∈ s.ghost.imu, b ≤ x.stamp) (hl : Later cfg s' s'') :
    Covers s''.ghost.imu a b ms ∧ ∀ x ∈ s''.ghost.imu, a < x.stamp → x.stamp < b → x ∈ ms := by
  have hc := (C25_content_partial cfg s s' hr a b ms hs hp).1
  have hr' : Reach cfg s' := .step (ev := .go) hr trivial hs
  have hr'' : Reach cfg s'' := by
    clear hc
    induction hl with
    | refl => exact hr'
    | step _ ha hs' ih => exact .step ih ha hs'
  have hpre1 : ∀ {u v : FE A K}, Move cfg u v → u.ghost.imu <+: v.ghost.imu := by
    intro u v hm
    cases hm with
    | imuQuiet => exact List.prefix_append _ _
    | imuOdometry => exact List.prefix_append _ _
    | optimisedA => exact List.prefix_refl _
    | optimisedB => exact List.prefix_refl _
    | barometer p _ _ ht => obtain ⟨bb, bt, ps, rfl, _⟩ := ht.frame; exact List.prefix_refl _
    | stereoQuiet => exact List.prefix_refl _
    | stereoSent => exact List.prefix_refl _
    | cloudFirst => exact List.prefix_refl _
    | cloudNext => exact List.prefix_refl _
    | selectWait => exact List.prefix_refl _
    | selectFrame => split <;> exact List.prefix_refl _
    | selectStart => exact List.prefix_refl _
    | s2s => exact List.prefix_refl _
    | initWait => exact List.prefix_refl _
    | initial => exact List.prefix_refl _
    | biasKnown => exact List.prefix_refl _
    | deskew => exact List.prefix_refl _
    | finishBaro msg prev t _ _ _ ht => obtain ⟨bb, bt, ps, rfl, _⟩ := ht.frame; exact List.prefix_refl _
    | finish => exact List.prefix_refl _
  have hpre : s.ghost.imu <+: s''.ghost.imu := by
    have h1 := hpre1 (move_of_step cfg .go s s' trivial hs)
    refine h1.trans ?_
    clear hc hr''
    induction hl with
    | refl => exact List.prefix_refl _
    | step _ ha hs' ih => exact ih.trans (hpre1 (move_of_step cfg _ _ _ ha hs'))
  obtain ⟨more, hmore⟩ := hpre
  have ho := (ii cfg s'' hr'').ordered
  rw [← hmore] at ho ⊢
  obtain ⟨before, first, after, e1, e2, e3, rfl⟩ := hc
  obtain ⟨x, hx, hxb⟩ := hx
  have hlate : ∀ y ∈ more, b < y.stamp := by
    intro y hy
    have := (List.pairwise_append.1 ho).2.2 x hx y hy
    omega
  have hab := (C25_content_partial cfg s s' hr a b _ hs hp).2.2
  have hcov : Covers (s.ghost.imu ++ more) a b (first :: after.filter (fun x => decide (x.stamp < b))) := by
    refine ⟨before, first, after ++ more, by rw [e1]; simp, e2, ?_, ?_⟩
    · intro y hy
      rcases List.mem_append.1 hy with hy | hy
      · exact e3 y hy
      · have := hlate y hy; omega
    · rw [List.filter_append]
      have : more.filter (fun x => decide (x.stamp < b)) = [] := by
        rw [List.filter_eq_nil_iff]
        intro y hy
        have := hlate y hy
        simp; omega
      rw [this, List.append_nil]
  refine ⟨hcov, ?_⟩
  intro y hy h1 h2
  rcases List.mem_append.1 hy with hy | hy
  · rw [e1] at hy ho
    rcases List.mem_append.1 hy with hy | hy
    · have ho' := (List.pairwise_append.1 ho).1
      have := (List.pairwise_append.1 ho').2.2 y hy first (by simp)
      omega
    · rcases List.mem_cons.1 hy with rfl | hy
      · omega
      · exact List.mem_cons_of_mem _ (List.mem_filter.2 ⟨hy, by simpa using h2⟩)
  · have := hlate y hy; omega

/-- IMU messages that arrive late. -/
def lateEvs : List (Ev Nat ℚ) :=
  [demoBaro 90 10, demoImu 100, demoImu 113, .cloud { usec := 111, sweep := 0 }, .stereo 112345,
    .cloud { usec := 121, sweep := 0 }, .go, .go, .go, .optimisedA 112000, .optimisedB, .go, .go, .go, .stereo 135000,
    .cloud { usec := 131, sweep := 0 }, .go, .go, demoImu 115, demoImu 116, demoImu 122, .go, .go, .go, .optimisedA 121000,
    .optimisedB, .cloud { usec := 141, sweep := 0 }, .go, .go]

theorem late_runs : (runEvs demoCfg lateEvs {}).isSome = true := by decide +kernel

theorem late_pubs : ((runEvs demoCfg lateEvs {}).get late_runs).pubs.all
    (fun p => match p with | .imuS2s _ _ ms => ms.all (fun x => decide (x.stamp ≠ 115000)) | _ => true) = true := by
  decide +kernel

/-- C76 fails: the callback does not wait for the measurements of the interval. A measurement that arrives after the array
of its interval was published is in no array. -/
theorem C76_fails_late : ∃ (cfg : Cfg Nat ℚ) (s : FE Nat ℚ), Reach cfg s ∧ ∃ x ∈ s.ghost.imu,
    ∃ t ∈ sentStates s, ∃ u ∈ sentStates s, t < x.stamp ∧ x.stamp < u ∧
      ∀ a b ms, Pub.imuS2s a b ms ∈ s.pubs → x ∉ ms := by
  refine ⟨demoCfg, (runEvs demoCfg lateEvs {}).get late_runs,
    reach_run demoCfg lateEvs {} _ .init (Option.some_get late_runs).symm, ⟨115000, 115⟩, by decide +kernel,
    112000, by decide +kernel, 121000, by decide +kernel, by decide, by decide, ?_⟩
  intro a b ms hm hx
  have := List.all_eq_true.1 late_pubs _ hm
  have := List.all_eq_true.1 this _ hx
  simp at this

end FrontEnd

end Serpent
