import Verif.Lemmas.BackEndFrame

/-!
# Back end: feature conversion, registration factors, mutex, published path (C17, C18, C19, C22)
-/

namespace Serpent

namespace BackEnd

open Graph M

variable {Val D O C I : Type}

/-! ### C17 -/

theorem fromRosLoop_spec (fs : List Feature) (acc : OMap Int StereoPoint) (hs : acc.Sorted) :
    (∀ m, fromRosLoop fs acc = .ok m → m.Sorted ∧ m.length = acc.length + fs.length ∧
      ∀ id p, (id, p) ∈ m ↔ (id, p) ∈ acc ∨ ∃ f ∈ fs, f.id = id ∧ measurementOf f = p) ∧
    (fromRosLoop fs acc = .throws ↔ ¬ ((fs.map Feature.id).Nodup ∧ ∀ f ∈ fs, acc.contains f.id = false)) ∧
    fromRosLoop fs acc ≠ .ub := by
  induction fs generalizing acc with
  | nil => simp [fromRosLoop, hs]
  | cons f fs ih =>
    simp only [fromRosLoop]
    by_cases hc : acc.contains f.id = true
    · rw [if_pos hc]
      refine ⟨by simp, ?_, by simp⟩
      simp [hc]
    · rw [if_neg hc]
      have hn : acc.find f.id = none := by
        cases e : acc.find f.id with
        | none => rfl
        | some v => exact absurd (contains_iff.2 ⟨v, e⟩) hc
      have hs' := OMap.sorted_emplace hs f.id (measurementOf f)
      obtain ⟨h1, h2, h3⟩ := ih _ hs'
      have hmem : ∀ id p, (id, p) ∈ acc.emplace f.id (measurementOf f) ↔
          (id, p) ∈ acc ∨ (f.id = id ∧ measurementOf f = p) := by
        intro id p
        rw [OMap.mem_iff_find hs', OMap.mem_iff_find hs, OMap.find_emplace hs]
        by_cases e : id = f.id
        · subst e; simp [hn]
        · simp [e, Ne.symm e]
      have hlen : (acc.emplace f.id (measurementOf f)).length = acc.length + 1 := by
        have : ∀ (m : OMap Int StereoPoint) (k : Int) (g : Option StereoPoint → StereoPoint), m.find k = none →
            (m.alter k g).length = m.length + 1 := by
          intro m k g
          induction m with
          | nil => intro _; rfl
          | cons a m ih =>
            obtain ⟨k', v⟩ := a
            intro hf
            rw [OMap.find_cons] at hf
            simp only [OMap.alter]
            split at hf
            · simp at hf
            · rename_i hne
              split
              · simp
              · simp only [List.length_cons, ih hf]
        exact this _ _ _ hn
      refine ⟨?_, ?_, h3⟩
      · intro m hm
        obtain ⟨a, b, c⟩ := h1 m hm
        refine ⟨a, by rw [b, hlen, List.length_cons]; omega, ?_⟩
        intro id p
        rw [c, hmem]
        simp only [List.mem_cons, exists_eq_or_imp, or_assoc]
      · refine h2.trans ?_
        have hcon : ∀ f' : Feature, (acc.emplace f.id (measurementOf f)).contains f'.id = false ↔
            f'.id ≠ f.id ∧ acc.contains f'.id = false := by
          intro f'
          unfold OMap.contains
          rw [OMap.find_emplace hs]
          by_cases e : f'.id = f.id <;> simp [e]
        refine not_congr ?_
        simp only [hcon, List.map_cons, List.nodup_cons, List.mem_map, List.mem_cons, forall_eq_or_imp]
        constructor
        · rintro ⟨h, h'⟩
          exact ⟨⟨fun ⟨f', hf', e⟩ => (h' f' hf').1 e, h⟩, by simpa using hc, fun f' hf' => (h' f' hf').2⟩
        · rintro ⟨⟨h1, h2⟩, _, h3⟩
          exact ⟨h2, fun f' hf' => ⟨fun e => h1 ⟨f', hf', e⟩, h3 f' hf'⟩⟩

/-- **C17.** A converted message has exactly one entry per feature, keyed by its id, in increasing id order. -/
theorem C17_entries (fs : List Feature) (m : OMap Int StereoPoint) (h : fromRos fs = .ok m) :
    m.Sorted ∧ m.length = fs.length ∧ ∀ id p, (id, p) ∈ m ↔ ∃ f ∈ fs, f.id = id ∧ measurementOf f = p := by
  obtain ⟨a, b, c⟩ := (fromRosLoop_spec fs [] OMap.sorted_nil).1 m h
  refine ⟨a, by simpa using b, fun id p => by simpa using c id p⟩

/-- **C17.** The conversion throws exactly when two features share an id, and otherwise returns. -/
theorem C17_throws (fs : List Feature) :
    (fromRos fs = .throws ↔ ¬ (fs.map Feature.id).Nodup) ∧ fromRos fs ≠ .ub := by
  obtain ⟨_, b, c⟩ := fromRosLoop_spec fs [] OMap.sorted_nil
  refine ⟨?_, c⟩
  unfold fromRos
  rw [b]
  simp [OMap.contains]

/-- Two features, given in decreasing id order. -/
example : fromRos [⟨7, 10, 20, 5, 22⟩, ⟨3, 1, 2, 0, 4⟩] = .ok [(3, ⟨1, 0, 3⟩), (7, ⟨10, 5, 21⟩)] := by decide +kernel
/-- A repeated id. -/
example : fromRos [⟨7, 10, 20, 5, 22⟩, ⟨7, 1, 2, 0, 4⟩] = .throws := by decide +kernel

/-! ### C22 -/

theorem pathLoop_ok (g : GM Val D) (pre : String) (n : Nat) (k : Nat) (ps : List (PathPose Val))
    (h : pathLoop g pre n k = .ok ps) :
    ps.length = n ∧ ∀ i (hi : i < ps.length), ShowsKey g ps[i] (k + i) ∧
      ps[i].frame = pre ++ "_" ++ toString ((k + i : Nat) : Int) := by
  induction n generalizing k ps with
  | zero => simp [pathLoop] at h; subst h; simp
  | succ n ih =>
    simp only [pathLoop] at h
    cases ht : timestamp g k with
    | throws => simp [ht] at h
    | ub => simp [ht] at h
    | ok t =>
      cases hp : pose g k with
      | throws => simp [ht, hp] at h
      | ub => simp [ht, hp] at h
      | ok p =>
        simp only [ht, hp, Outcome.bind_ok] at h
        have e : ((k : Int) + 1) = ((k + 1 : Nat) : Int) := by omega
        rw [e] at h
        cases hr : pathLoop g pre n ((k + 1 : Nat) : Int) with
        | throws => rw [hr] at h; simp at h
        | ub => rw [hr] at h; simp at h
        | ok rest =>
          rw [hr] at h
          simp at h
          obtain ⟨hl, hall⟩ := ih (k + 1) rest hr
          subst h
          refine ⟨by simp [hl], ?_⟩
          intro i hi
          cases i with
          | zero => simpa [ShowsKey] using ⟨ht, hp⟩
          | succ i =>
            have := hall i (by simpa using hi)
            have e2 : k + 1 + i = k + (i + 1) := by omega
            rw [e2] at this
            simpa using this

theorem pathLoop_total (g : GM Val D) (pre : String) (n : Nat) (k : Nat)
    (h : ∀ i, i < n → (∃ t, timestamp g ((k + i : Nat) : Int) = .ok t) ∧ ∃ v, pose g ((k + i : Nat) : Int) = .ok v) :
    ∃ ps, pathLoop g pre n k = .ok ps := by
  induction n generalizing k with
  | zero => exact ⟨_, rfl⟩
  | succ n ih =>
    obtain ⟨⟨t, ht⟩, ⟨v, hv⟩⟩ := h 0 (by omega)
    have e : ((k : Int) + 1) = ((k + 1 : Nat) : Int) := by omega
    obtain ⟨ps, hps⟩ := ih (k + 1) (fun i hi => by
      have := h (i + 1) (by omega)
      have e2 : k + 1 + i = k + (i + 1) := by omega
      rw [e2]; exact this)
    simp only [Nat.add_zero] at ht hv
    refine ⟨⟨t, pre ++ "_" ++ toString (k : Int), v⟩ :: ps, ?_⟩
    simp only [pathLoop, ht, hv, Outcome.bind_ok]
    rw [e, hps]
    rfl

/-- **C22.** A path converted for maximum key `m` has the time stamp of `m` and exactly `m + 1` entries, entry `i` with
the time stamp and pose of key `i`. -/
theorem C22_path (g : GM Val D) (m : Nat) (pre mf : String) (p : Path Val) (h : convertToPath g m pre mf = .ok p) :
    timestamp g m = .ok p.stamp ∧ p.frame = mf ∧ p.poses.length = m + 1 ∧
    ∀ i (hi : i < p.poses.length), ShowsKey g p.poses[i] i ∧
      p.poses[i].frame = pre ++ "_" ++ toString ((i : Nat) : Int) := by
  unfold convertToPath at h
  cases ht : timestamp g m with
  | throws => simp [ht] at h
  | ub => simp [ht] at h
  | ok t =>
    simp only [ht, Outcome.bind_ok] at h
    have e : ((m : Int) + 1).toNat = m + 1 := by omega
    rw [e] at h
    cases hl : pathLoop g pre (m + 1) 0 with
    | throws => simp [hl] at h
    | ub => simp [hl] at h
    | ok ps =>
      simp [hl] at h
      obtain ⟨a, b⟩ := pathLoop_ok g pre (m + 1) 0 ps (by simpa using hl)
      subst h
      exact ⟨rfl, rfl, a, fun i hi => by simpa using b i hi⟩

/-- **C22.** If every key up to `m` has a time stamp and a pose, the path is produced. -/
theorem C22_path_total (g : GM Val D) (m : Nat) (pre mf : String)
    (h : ∀ i : Nat, i ≤ m → (∃ t, timestamp g i = .ok t) ∧ ∃ v, pose g i = .ok v) :
    ∃ p, convertToPath g m pre mf = .ok p := by
  obtain ⟨⟨t, ht⟩, _⟩ := h m (le_refl _)
  obtain ⟨ps, hps⟩ := pathLoop_total g pre (m + 1) 0 (fun i hi => by simpa using h i (by omega))
  have e : ((m : Int) + 1).toNat = m + 1 := by omega
  have hps' : pathLoop g pre (m + 1) 0 = .ok ps := by simpa using hps
  refine ⟨⟨t, mf, ps⟩, ?_⟩
  unfold convertToPath
  simp only [ht, Outcome.bind_ok, e, hps']

theorem copyPoses_eq (ch : List Key) (ps : List (PathPose Val)) : copyPoses ch ps = ps := by
  induction ps with
  | nil => rfl
  | cons a l ih => simp [copyPoses, ih]

/-- **C22, what holds of the changed poses.** The changed-poses path has the header of the path and contains every
changed pose. (Missing: it also contains the unchanged ones, see `C22_fails_changed`.) -/
theorem C22_changed_partial (p : Path Val) (ch : List Key) :
    (extractChangedPoses p ch).stamp = p.stamp ∧ (extractChangedPoses p ch).frame = p.frame ∧
    (extractChangedPoses p ch).poses = p.poses ∧
    (changedOnly ch p.poses).Sublist (extractChangedPoses p ch).poses := by
  refine ⟨rfl, rfl, copyPoses_eq _ _, ?_⟩
  simp only [extractChangedPoses, copyPoses_eq, changedOnly]
  have h1 : (p.poses.zipIdx.filter (fun e => ch.contains (keyOf .X e.2))).Sublist p.poses.zipIdx := List.filter_sublist
  have h2 := h1.map Prod.fst
  rwa [List.zipIdx_map_fst] at h2

/-- **C22 fails for the changed poses.** When nothing is reported as changed, all poses are still published as changed. -/
theorem C22_fails_changed : ∃ (p : Path Nat) (ch : List Key),
    (extractChangedPoses p ch).poses ≠ changedOnly ch p.poses :=
  ⟨⟨1, "map", [⟨0, "body_0", 5⟩, ⟨1, "body_1", 6⟩]⟩, [keyOf .X 1], by decide +kernel⟩

/-- **C22.** What `publish` emits: odometry and biases of the key, then the path and the changed poses of that path. -/
theorem C22_published (api : Api Val D O C I) (cfg : Cfg) (k : Int) (s s' : BE Val D O)
    (h : publish api cfg k s = (.ok (), s')) :
    ∃ t p v b path, timestamp s.isam.gm k = .ok t ∧ pose s.isam.gm k = .ok p ∧ velocity s.isam.gm k = .ok v ∧
      imuBias s.isam.gm k = .ok b ∧ convertToPath s.isam.gm k cfg.prefixId cfg.mapFrame = .ok path ∧
      s' = { s with published := s.published ++ [.odometry t p v, .biases t b, .path path,
        .pathChanges (extractChangedPoses path (api.changed s.isam.opt))] } := by
  have hm : ∀ c k (s : BE Val D O), (marginalOf api c k s).2 = s := fun c k s =>
    keeps_marginalOf (P := fun x => x = s) api c k s rfl
  have hb1 : ∀ s : BE Val D O, (branch (cfg.stereo = true) (pure ()) (marginalOf api .X k) s).2 = s := by
    intro s; unfold branch; split
    · rfl
    · exact hm _ _ _
  have hb2 : ∀ s : BE Val D O, (branch (cfg.imu = true) (marginalOf api .V k) (pure ()) s).2 = s := by
    intro s; unfold branch; split
    · exact hm _ _ _
    · rfl
  unfold publish at h
  simp only [bind_run, read] at h
  cases ht : timestamp s.isam.gm k with
  | throws => simp [ht] at h
  | ub => simp [ht] at h
  | ok t =>
  cases hp : pose s.isam.gm k with
  | throws => simp [ht, hp] at h
  | ub => simp [ht, hp] at h
  | ok p =>
  simp only [ht, hp] at h
  have e1 := hb1 s
  rcases hx : branch (cfg.stereo = true) (pure ()) (marginalOf api .X k) s with ⟨o1, s1⟩
  rw [hx] at h e1
  simp only at e1
  subst e1
  cases o1 with
  | throws => simp at h
  | ub => simp at h
  | ok _ =>
  simp only at h
  cases hv : velocity s1.isam.gm k with
  | throws => simp [hv] at h
  | ub => simp [hv] at h
  | ok v =>
  simp only [hv] at h
  have e2 := hb2 s1
  rcases hy : branch (cfg.imu = true) (marginalOf api .V k) (pure ()) s1 with ⟨o2, s2⟩
  rw [hy] at h e2
  simp only at e2
  subst e2
  cases o2 with
  | throws => simp at h
  | ub => simp at h
  | ok _ =>
  simp only [emit, modify_run] at h
  cases hb : imuBias s2.isam.gm k with
  | throws => simp [hb] at h
  | ub => simp [hb] at h
  | ok b =>
  simp only [hb] at h
  cases hc : convertToPath s2.isam.gm k cfg.prefixId cfg.mapFrame with
  | throws => simp [hc] at h
  | ub => simp [hc] at h
  | ok path =>
  simp only [hc, get_run, Prod.mk.injEq, true_and] at h
  refine ⟨t, p, v, b, path, rfl, rfl, rfl, rfl, rfl, ?_⟩
  rw [← h]
  simp

/-- A graph with two states. -/
def demoGraph : GM Nat Nat :=
  { timestamps := [(0, 100), (1, 200)]
    values := [(keyOf .B 0, 1), (keyOf .B 1, 2), (keyOf .V 0, 3), (keyOf .V 1, 4), (keyOf .X 0, 5), (keyOf .X 1, 6)] }

example : convertToPath demoGraph 1 "body" "map" =
    .ok ⟨200, "map", [⟨100, "body_0", 5⟩, ⟨200, "body_1", 6⟩]⟩ := by decide +kernel

/-! ### C19 -/

/-- **C19.** The initial odometry and the registration callback release the mutex on every way out. -/
theorem C19_guarded_partial (er : EndRead) (api : Api Val D O C I) (cfg : Cfg) (s : BE Val D O) :
    (∀ msg, (initialCallback er api cfg msg s).2.locked = false) ∧
    (∀ msg, (registrationCallback er api cfg msg s).2.locked = false) := ⟨fun _ => rfl, fun _ => rfl⟩

/-- What a callback of the form "lock, prologue, sleep, work, unlock" does to the mutex: it is left locked exactly when the
prologue, the sleep or the work throws, or when the sleep ends because of shutdown. -/
theorem sleeper_locked {α : Type} (pro : M (BE Val D O) α) (cond : α → M (BE Val D O) Bool)
    (work : α → M (BE Val D O) Unit)
    (hpro : Keeps (fun s : BE Val D O => s.locked = true) pro)
    (hcond : ∀ a, Keeps (fun s : BE Val D O => s.locked = true) (cond a))
    (hwork : ∀ a, Keeps (fun s : BE Val D O => s.locked = true) (work a))
    (script : List (Env Val D O)) (s : BE Val D O) (hs : s.locked = true) :
    ((do
      let a ← pro
      let ok ← protectedSleep (cond a) script
      if ok then (do work a; unlock) else pure () : M (BE Val D O) Unit) s).2.locked = false ↔
    ∃ a s1 s2 s3, pro s = (.ok a, s1) ∧ protectedSleep (cond a) script s1 = (.ok true, s2) ∧
      work a s2 = (.ok (), s3) := by
  simp only [bind_run]
  rcases h1 : pro s with ⟨o1, s1⟩
  have l1 : s1.locked = true := by have := hpro s hs; rw [h1] at this; exact this
  cases o1 with
  | throws => simp [l1]
  | ub => simp [l1]
  | ok a =>
    simp only
    rcases h2 : protectedSleep (cond a) script s1 with ⟨o2, s2⟩
    have l2 : s2.locked = true := by have := sleep_locked (hcond a) script s1 l1; rw [h2] at this; exact this
    cases o2 with
    | throws => simp [l2, h2]
    | ub => simp [l2, h2]
    | ok b =>
      cases b with
      | false => simp [l2, h2]
      | true =>
        simp only [if_true, bind_run]
        rcases h3 : work a s2 with ⟨o3, s3⟩
        have l3 : s3.locked = true := by have := hwork a s2 l2; rw [h3] at this; exact this
        cases o3 with
        | throws => simp [l3, h2, h3]
        | ub => simp [l3, h2, h3]
        | ok _ => simp [h2, h3, unlock]

/-- **C19, IMU callback.** Started with the mutex free, it leaves it free exactly when the message is empty (it throws
before locking) or the wait was not interrupted and nothing threw. (Missing: the other ways out, see
`C19_fails_imu_shutdown` and `C19_fails_imu_throw`.) -/
theorem C19_imu_partial (er : EndRead) (api : Api Val D O C I) (cfg : Cfg) (msg : ImuMsg I)
    (script : List (Env Val D O)) (s : BE Val D O) (hs : s.locked = false) :
    (imuCallback er api cfg msg script s).2.locked = false ↔
      msg.measurements = [] ∨ ∃ s1 s2 s3, imuWarn { s with locked := true } = (.ok (), s1) ∧
        protectedSleep imuWait script s1 = (.ok true, s2) ∧ imuBody er api cfg msg s2 = (.ok (), s3) := by
  unfold imuCallback
  by_cases he : msg.measurements = []
  · simp [he, hs]
  · rw [if_neg (by simpa using he)]
    have := sleeper_locked imuWarn (fun _ => imuWait) (fun _ => imuBody er api cfg msg) keeps_imuWarn
      (fun _ => keeps_imuWait)
      (fun _ => keeps_imuBody (locked_isam _) (locked_pub _) (locked_calls _) _ _ _ _) script
      { s with locked := true } rfl
    rw [lock, modify_bind, this]
    constructor
    · rintro ⟨a, s1, s2, s3, h⟩
      exact Or.inr ⟨s1, s2, s3, h⟩
    · rintro (h | ⟨s1, s2, s3, h⟩)
      · exact absurd h he
      · exact ⟨(), s1, s2, s3, h⟩

/-- **C19, barometer callback.** As for the IMU callback. -/
theorem C19_barometer_partial (api : Api Val D O C I) (cfg : Cfg) (msg : BaroMsg)
    (script : List (Env Val D O)) (s : BE Val D O) :
    (barometerCallback api cfg msg script s).2.locked = false ↔
      ∃ next s1 s2, key s.isam.gm "barometer" 0 = .ok next ∧
        protectedSleep (baroWait msg.stamp) script { s with locked := true } = (.ok true, s1) ∧
        baroBody api cfg next msg s1 = (.ok (), s2) := by
  unfold barometerCallback
  have := sleeper_locked (read (fun g => key g "barometer" 0)) (fun _ => baroWait msg.stamp)
      (fun next => baroBody api cfg next msg) (keeps_read _) (fun _ => keeps_baroWait (locked_isam _) _)
      (fun _ => keeps_baroBody (locked_isam _) _ _ _ _) script { s with locked := true } rfl
  rw [lock, modify_bind, this]
  constructor
  · rintro ⟨a, s1, s2, s3, h1, h2, h3⟩
    simp only [read, Prod.mk.injEq] at h1
    obtain ⟨h1, rfl⟩ := h1
    exact ⟨a, s2, s3, h1, h2, h3⟩
  · rintro ⟨a, s2, s3, h1, h2, h3⟩
    exact ⟨a, _, s2, s3, by simp [read, h1], h2, h3⟩

theorem stereoLoopB_locked (er : EndRead) (api : Api Val D O C I) (cfg : Cfg) (msg : StereoMsg)
    (scripts : List (List (Env Val D O))) (s : BE Val D O) (hs : s.locked = true) :
    (∀ o s', stereoLoopB er api cfg msg scripts s = (o, s') → (∀ a, o ≠ .ok a) → s'.locked = true) := by
  induction scripts generalizing s with
  | nil =>
    intro o s' h _
    have : Keeps (fun s : BE Val D O => s.locked = true) (stereoLoopB er api cfg msg []) :=
      Keeps.bind keeps_stereoWait fun _ => Keeps.bind (Keeps.pure _) fun _ => Keeps.pure _
    have := this s hs
    rw [h] at this
    exact this
  | cons sc rest ih =>
    intro o s' h hne
    simp only [stereoLoopB, bind_run] at h
    rcases h1 : stereoWait s with ⟨o1, s1⟩
    have l1 : s1.locked = true := by
      have := keeps_stereoWait (P := fun s : BE Val D O => s.locked = true) s hs; rw [h1] at this; exact this
    rw [h1] at h
    cases o1 with
    | throws => simp at h; rw [← h.2]; exact l1
    | ub => simp at h; rw [← h.2]; exact l1
    | ok w =>
      simp only at h
      rcases h2 : protectedSleep stereoWait sc s1 with ⟨o2, s2⟩
      have l2 : s2.locked = true := by
        have := sleep_locked keeps_stereoWait sc s1 l1; rw [h2] at this; exact this
      rw [h2] at h
      cases o2 with
      | throws => simp at h; rw [← h.2]; exact l2
      | ub => simp at h; rw [← h.2]; exact l2
      | ok b =>
        cases b with
        | false => simp at h; rw [← h.2]; exact l2
        | true =>
          simp only [if_true, bind_run] at h
          rcases h3 : stereoIter er api cfg msg s2 with ⟨o3, s3⟩
          have l3 : s3.locked = true := by
            have := keeps_stereoIter (locked_isam true) (locked_pub _) (locked_calls _) er api cfg msg s2 l2
            rw [h3] at this; exact this
          rw [h3] at h
          cases o3 with
          | throws => simp at h; rw [← h.2]; exact l3
          | ub => simp at h; rw [← h.2]; exact l3
          | ok c =>
            cases c with
            | true => exact ih s3 l3 o s' h hne
            | false =>
              simp [unlock] at h
              exact absurd h.1.symm (hne ())

/-- The stereo callback runs to its end: each wait ends because a pose is there, and nothing throws. -/
def StereoCompletes (er : EndRead) (api : Api Val D O C I) (cfg : Cfg) (msg : StereoMsg) :
    List (List (Env Val D O)) → BE Val D O → Prop
  | [], _ => False
  | sc :: rest, s => ∃ w s1 s2 again s3, stereoWait s = (.ok w, s1) ∧
      protectedSleep stereoWait sc s1 = (.ok true, s2) ∧ stereoIter er api cfg msg s2 = (.ok again, s3) ∧
      (again = false ∨ StereoCompletes er api cfg msg rest s3)

/-- **C19, stereo callback.** It leaves the mutex free exactly when no wait was interrupted by shutdown and nothing
threw. -/
theorem C19_stereo_partial (er : EndRead) (api : Api Val D O C I) (cfg : Cfg) (msg : StereoMsg)
    (scripts : List (List (Env Val D O))) (s : BE Val D O) :
    (stereoCallback er api cfg msg scripts s).2.locked = false ↔
      StereoCompletes er api cfg msg scripts { s with locked := true } := by
  unfold stereoCallback
  rw [lock, modify_bind]
  generalize hg : ({ s with locked := true } : BE Val D O) = s0
  have hs : s0.locked = true := by rw [← hg]
  clear hg
  induction scripts generalizing s0 with
  | nil =>
    have : Keeps (fun s : BE Val D O => s.locked = true) (stereoLoopB er api cfg msg []) :=
      Keeps.bind keeps_stereoWait fun _ => Keeps.bind (Keeps.pure _) fun _ => Keeps.pure _
    simp [StereoCompletes, this s0 hs]
  | cons sc rest ih =>
    simp only [stereoLoopB, bind_run, StereoCompletes]
    rcases h1 : stereoWait s0 with ⟨o1, s1⟩
    have l1 : s1.locked = true := by
      have := keeps_stereoWait (P := fun s : BE Val D O => s.locked = true) s0 hs; rw [h1] at this; exact this
    cases o1 with
    | throws => simp [l1]
    | ub => simp [l1]
    | ok w =>
      simp only
      rcases h2 : protectedSleep stereoWait sc s1 with ⟨o2, s2⟩
      have l2 : s2.locked = true := by
        have := sleep_locked keeps_stereoWait sc s1 l1; rw [h2] at this; exact this
      cases o2 with
      | throws => simp [l2, h2]
      | ub => simp [l2, h2]
      | ok b =>
        cases b with
        | false => simp [l2, h2]
        | true =>
          simp only [if_true, bind_run]
          rcases h3 : stereoIter er api cfg msg s2 with ⟨o3, s3⟩
          have l3 : s3.locked = true := by
            have := keeps_stereoIter (locked_isam true) (locked_pub _) (locked_calls _) er api cfg msg s2 l2
            rw [h3] at this; exact this
          cases o3 with
          | throws => simp [l3, h2, h3]
          | ub => simp [l3, h2, h3]
          | ok c =>
            cases c with
            | true => simp [h2, h3, ih s3 l3]
            | false => simp [unlock, h2, h3]

/-- **C19 fails on shutdown.** If the node is shut down while the IMU callback has to wait, the callback returns normally
with the mutex locked; so do the stereo and the barometer callback. -/
theorem C19_fails_shutdown (er : EndRead) (api : Api Val D O C I) (cfg : Cfg) (s : BE Val D O) :
    (∀ msg : ImuMsg I, msg.measurements ≠ [] → (imuWarn s).1 = .ok () →
      (imuCallback er api cfg msg [] s).1 = .ok () ∧ (imuCallback er api cfg msg [] s).2.locked = true) ∧
    (∀ msg : StereoMsg, (∃ w, (stereoWait s).1 = .ok w) →
      (stereoCallback er api cfg msg [] s).1 = .ok () ∧ (stereoCallback er api cfg msg [] s).2.locked = true) ∧
    (∀ msg : BaroMsg, (∃ k, key s.isam.gm "barometer" 0 = .ok k) →
      (barometerCallback api cfg msg [] s).1 = .ok () ∧ (barometerCallback api cfg msg [] s).2.locked = true) := by
  refine ⟨?_, ?_, ?_⟩
  · intro msg he hw
    unfold imuCallback
    rw [if_neg (by simpa using he), lock, modify_bind]
    have e : (imuWarn { s with locked := true }).1 = (imuWarn s).1 := by
      simp only [imuWarn, bind_run, read, get_run]
      cases key s.isam.gm "imu" 0 with
      | throws => rfl
      | ub => rfl
      | ok k =>
        simp only
        split
        · simp only [bind_run, read]
          cases timestamp s.isam.gm s.isam.optKey with
          | throws => rfl
          | ub => rfl
          | ok t => dsimp only; cases timestamp s.isam.gm k <;> rfl
        · rfl
    rw [hw] at e
    rw [bind_run]
    rcases h1 : imuWarn { s with locked := true } with ⟨o, s1⟩
    rw [h1] at e
    simp only at e
    subst e
    have l1 : s1.locked = true := by
      have := keeps_imuWarn (P := fun s : BE Val D O => s.locked = true) { s with locked := true } rfl
      rw [h1] at this; exact this
    simp [bind_run, protectedSleep, l1]
  · rintro msg ⟨w, hw⟩
    unfold stereoCallback
    rw [lock, modify_bind]
    have e : (stereoWait { s with locked := true }).1 = (stereoWait s).1 := by
      simp only [stereoWait, bind_run, read]
      cases key s.isam.gm "stereo" 1 with
      | throws => rfl
      | ub => rfl
      | ok k => simp only; cases hasPose s.isam.gm k <;> rfl
    rw [hw] at e
    simp only [stereoLoopB, bind_run]
    rcases h1 : stereoWait { s with locked := true } with ⟨o, s1⟩
    rw [h1] at e
    simp only at e
    subst e
    have l1 : s1.locked = true := by
      have := keeps_stereoWait (P := fun s : BE Val D O => s.locked = true) { s with locked := true } rfl
      rw [h1] at this; exact this
    simp [protectedSleep, l1]
  · rintro msg ⟨k, hk⟩
    unfold barometerCallback
    rw [lock, modify_bind]
    simp [bind_run, read, hk, protectedSleep]

/-- **C19 fails on exceptions.** Whenever the work of the IMU, stereo or barometer callback throws, the mutex stays
locked. -/
theorem C19_fails_throw (er : EndRead) (api : Api Val D O C I) (cfg : Cfg) (s : BE Val D O) :
    (∀ (msg : ImuMsg I) script, msg.measurements ≠ [] → (imuCallback er api cfg msg script s).1 = .throws →
      (imuCallback er api cfg msg script s).2.locked = true) ∧
    (∀ (msg : StereoMsg) scripts, (stereoCallback er api cfg msg scripts s).1 = .throws →
      (stereoCallback er api cfg msg scripts s).2.locked = true) ∧
    (∀ (msg : BaroMsg) script, (barometerCallback api cfg msg script s).1 = .throws →
      (barometerCallback api cfg msg script s).2.locked = true) := by
  refine ⟨?_, ?_, ?_⟩
  · intro msg script he ht
    by_contra hl
    have hl : (imuCallback er api cfg msg script { s with locked := false }).2.locked = false := by
      have : imuCallback er api cfg msg script { s with locked := false } = imuCallback er api cfg msg script s := by
        unfold imuCallback
        rw [if_neg (by simpa using he), lock, modify_bind, modify_bind]
      rw [this]; simpa using hl
    rcases (C19_imu_partial er api cfg msg script { s with locked := false } rfl).1 hl with h | ⟨s1, s2, s3, h1, h2, h3⟩
    · exact he h
    · unfold imuCallback at ht
      rw [if_neg (by simpa using he), lock, modify_bind, bind_run] at ht
      simp only at h1
      rw [h1] at ht
      simp [bind_run, h2, h3, unlock] at ht
  · intro msg scripts ht
    unfold stereoCallback at ht ⊢
    rw [lock, modify_bind] at ht ⊢
    rcases h : stereoLoopB er api cfg msg scripts { s with locked := true } with ⟨o, s'⟩
    rw [h] at ht
    simp only at ht
    subst ht
    exact stereoLoopB_locked er api cfg msg scripts { s with locked := true } rfl .throws s' h (by simp)
  · intro msg script ht
    by_contra hl
    obtain ⟨next, s1, s2, h1, h2, h3⟩ := (C19_barometer_partial api cfg msg script s).1 (by simpa using hl)
    unfold barometerCallback at ht
    rw [lock, modify_bind, bind_run] at ht
    simp [read, h1, bind_run, h2, h3, unlock] at ht

end BackEnd

end Serpent
