import Verif.Props.GraphFactors
import Verif.Props.GraphValues

/-!
# Properties of stereo factors and landmarks (C09, C10, C11)
-/

namespace Serpent

namespace Graph

open M

variable {Val D : Type}

/-! ## Lemmas on frame sequences -/

theorem keyOf_inj {c : Fam} {a b : Int} (ha : 0 ≤ a) (hb : 0 ≤ b) (h : keyOf c a = keyOf c b) : a = b := by
  unfold keyOf at h; omega

/-- All stereo factors that a sequence of frames (newest first) gives rise to. -/
def stereoAll : List (Int × OMap Int D) → List (Factor D)
  | [] => []
  | (k, l) :: e => stereoAll e ++ frameFactors k l e

theorem created_stereo (log : List (Op Val D × Resp Val D)) :
    ((created log).map Prod.snd).filter (fun f => decide (f.kind = .stereo)) = stereoAll (frames log) := by
  have hall : ∀ (fs : List (Int × OMap Int D)) (k : Int) (l : OMap Int D), ∀ f ∈ frameFactors k l fs,
      f.kind = .stereo := by
    intro fs k l f hf
    cases fs with
    | nil => simp [frameFactors] at hf
    | cons e fs =>
      obtain ⟨_, prev⟩ := e
      simp only [frameFactors, stereoFactors, List.mem_flatMap] at hf
      obtain ⟨e, _, he⟩ := hf
      split at he
      · simp at he
      · rw [List.mem_append] at he
        rcases he with he | he
        · split at he
          · simp at he; rw [he]
          · simp at he
        · simp at he; rw [he]
  induction log with
  | nil => rfl
  | cons e log ih =>
    obtain ⟨op, r⟩ := e
    by_cases h1 : ∃ k l, op = .stereo k l ∧ r = .done
    · obtain ⟨k, l, rfl, rfl⟩ := h1
      show (((created log) ++ _).map Prod.snd).filter _ = stereoAll (frames log) ++ _
      rw [List.map_append, List.filter_append, ih]
      congr 1
      rw [List.map_map]
      have : (Prod.snd ∘ fun f : Factor D => (k, f)) = id := rfl
      rw [this, List.map_id, List.filter_eq_self]
      intro f hf
      simpa using hall _ _ _ f hf
    · have hf : frames ((op, r) :: log) = frames log := by
        cases op <;> cases r <;> first | rfl | (exfalso; exact h1 ⟨_, _, rfl, rfl⟩)
      rw [hf, ← ih]
      cases op <;> cases r <;> simp_all [created]

theorem frameAt_cons (j k : Int) (l : OMap Int D) (fs : List (Int × OMap Int D)) :
    frameAt j ((k, l) :: fs) = if k = j then some l else frameAt j fs := by
  unfold frameAt
  rw [List.find?_cons]
  by_cases h : k = j <;> simp [h]

theorem frameAt_none {j : Int} {fs : List (Int × OMap Int D)} (h : ∀ f ∈ fs, f.1 ≠ j) : frameAt j fs = none := by
  unfold frameAt
  rw [List.find?_eq_none.2]
  · rfl
  · intro f hf; simpa using h f hf

theorem seen_none {j id : Int} {fs : List (Int × OMap Int D)} (h : ∀ f ∈ fs, f.1 ≠ j) : seen j id fs = false := by
  unfold seen; rw [frameAt_none h]

theorem seen_cons (j id k : Int) (l : OMap Int D) (fs : List (Int × OMap Int D)) :
    seen j id ((k, l) :: fs) = if k = j then (l.find id).isSome else seen j id fs := by
  unfold seen
  rw [frameAt_cons]
  by_cases h : k = j <;> simp [h]

theorem consecutive_le {k : Int} {l : OMap Int D} {fs : List (Int × OMap Int D)} (h : Consecutive ((k, l) :: fs)) :
    ∀ f ∈ fs, f.1 < k := by
  induction fs generalizing k l with
  | nil => simp
  | cons e fs ih =>
    obtain ⟨k', l'⟩ := e
    obtain ⟨h1, h2⟩ := h
    intro f hf
    rcases List.mem_cons.1 hf with rfl | hf
    · dsimp only; omega
    · have := ih h2 f hf; omega

/-- Factors of one feature of a frame. -/
def featFactors (k : Int) (prev : OMap Int D) (pp : Option (OMap Int D)) (e : Int × D) : List (Factor D) :=
  match prev.find e.1 with
  | none => []
  | some po =>
    (if newlyTracked pp e.1 then [⟨.stereo, [keyOf .X (k - 1), keyOf .S e.1], po⟩] else []) ++
      [⟨.stereo, [keyOf .X k, keyOf .S e.1], e.2⟩]

/-- The factors of one frame on one (pose, landmark) pair. -/
theorem stereoFactors_filter {k : Int} {prev : OMap Int D} {pp : Option (OMap Int D)} {l : OMap Int D} (hl : l.Sorted)
    (hn : ∀ e ∈ l, 0 ≤ e.1) {j id : Int} (hk : 1 ≤ k) (hj : 0 ≤ j) (hid : 0 ≤ id) :
    (stereoFactors k prev pp l).filter (fun f => decide (f.vars = [keyOf .X j, keyOf .S id])) =
      match l.find id, prev.find id with
      | some o, some po =>
        (if newlyTracked pp id = true ∧ j = k - 1 then [⟨.stereo, [keyOf .X j, keyOf .S id], po⟩] else []) ++
          (if j = k then [⟨.stereo, [keyOf .X j, keyOf .S id], o⟩] else [])
      | _, _ => [] := by
  have one : ∀ e : Int × D, 0 ≤ e.1 → (featFactors k prev pp e).filter
          (fun f => decide (f.vars = [keyOf .X j, keyOf .S id])) =
      if e.1 = id then (match prev.find id with
        | none => []
        | some po =>
          (if newlyTracked pp id = true ∧ j = k - 1 then [⟨.stereo, [keyOf .X j, keyOf .S id], po⟩] else []) ++
            (if j = k then [⟨.stereo, [keyOf .X j, keyOf .S id], e.2⟩] else [])) else [] := by
    intro e he
    unfold featFactors
    by_cases h1 : e.1 = id
    · subst h1
      rw [if_pos rfl]
      cases hp : prev.find e.1 with
      | none => rfl
      | some po =>
        dsimp only
        rw [List.filter_append]
        congr 1
        · by_cases hnt : newlyTracked pp e.1 = true
          · by_cases hj' : j = k - 1
            · subst hj'; simp [hnt]
            · have : ¬ keyOf .X (k - 1) = keyOf .X j := fun h => hj' (keyOf_inj (by omega) hj h).symm
              simp [hnt, hj', this]
          · simp [hnt]
        · by_cases hj' : j = k
          · subst hj'; simp
          · have : ¬ keyOf .X k = keyOf .X j := fun h => hj' (keyOf_inj (by omega) hj h).symm
            simp [hj', this]
    · rw [if_neg h1, List.filter_eq_nil_iff]
      have hS : ¬ keyOf .S e.1 = keyOf .S id := fun h => h1 (keyOf_inj he hid h)
      intro f hf
      cases hp : prev.find e.1 with
      | none => simp [hp] at hf
      | some po =>
        rw [hp] at hf
        dsimp only at hf
        rw [List.mem_append] at hf
        rcases hf with hf | hf
        · split at hf
          · simp at hf; subst hf; simp [hS]
          · simp at hf
        · simp at hf; subst hf; simp [hS]
  induction l with
  | nil => rfl
  | cons e l ih =>
    have hl' := OMap.sorted_cons.1 hl
    have hstep : stereoFactors k prev pp (e :: l) = (featFactors k prev pp e) ++ stereoFactors k prev pp l := by
      unfold stereoFactors
      rw [List.flatMap_cons]
      rfl
    rw [hstep, List.filter_append, one e (hn e List.mem_cons_self),
      ih hl'.2 (fun e he => hn e (List.mem_cons_of_mem _ he)), OMap.find_cons]
    by_cases h1 : e.1 = id
    · subst h1
      rw [OMap.find_eq_none_of_lt hl'.1]
      simp only [if_true, List.append_nil]
      cases prev.find e.1 <;> rfl
    · rw [if_neg h1, if_neg (fun h => h1 h.symm), List.nil_append]

/-- The factor expected on pose `j` and landmark `id`, given the frames. -/
def expected (fs : List (Int × OMap Int D)) (j id : Int) : List (Factor D) :=
  match frameAt j fs with
  | none => []
  | some l =>
    match l.find id with
    | none => []
    | some o =>
      if seen (j - 1) id fs || seen (j + 1) id fs then [⟨.stereo, [keyOf .X j, keyOf .S id], o⟩] else []

theorem stereoAll_filter {fs : List (Int × OMap Int D)} (hc : Consecutive fs) (hs : ∀ f ∈ fs, f.2.Sorted)
    (hn : ∀ f ∈ fs, 0 ≤ f.1 ∧ ∀ e ∈ f.2, 0 ≤ e.1) {j id : Int} (hj : 0 ≤ j) (hid : 0 ≤ id) :
    (stereoAll fs).filter (fun f => decide (f.vars = [keyOf .X j, keyOf .S id])) = expected fs j id := by
  induction fs with
  | nil => rfl
  | cons f rest ih =>
    obtain ⟨k, l⟩ := f
    cases rest with
    | nil =>
      show [] = _
      unfold expected
      rw [frameAt_cons]
      by_cases h : k = j
      · subst h
        rw [if_pos rfl]
        dsimp only
        rw [seen_none (j := k - 1) (by simp; omega), seen_none (j := k + 1) (by simp)]
        cases l.find id <;> rfl
      · rw [if_neg h]; rfl
    | cons f' older =>
      obtain ⟨k', prev⟩ := f'
      have hle := consecutive_le hc
      have hc2 := hc.2
      have hle' := consecutive_le hc2
      have hk : k = k' + 1 := hc.1
      have hk' : 0 ≤ k' := (hn (k', prev) (by simp)).1
      have ih := ih hc2 (fun f hf => hs f (List.mem_cons_of_mem _ hf)) (fun f hf => hn f (List.mem_cons_of_mem _ hf))
      have hpp : newlyTracked (older.head?.map Prod.snd) id = !seen (k' - 1) id ((k', prev) :: older) := by
        rw [seen_cons, if_neg (by omega)]
        cases older with
        | nil => rfl
        | cons f2 older =>
          obtain ⟨k2, l2⟩ := f2
          have : k' = k2 + 1 := hc2.1
          simp only [List.head?_cons, Option.map_some, newlyTracked]
          rw [seen_cons, if_pos (by omega)]
          cases l2.find id <;> rfl
      show (stereoAll ((k', prev) :: older) ++ stereoFactors k prev (older.head?.map Prod.snd) l).filter _ = _
      rw [List.filter_append, ih, stereoFactors_filter (hs (k, l) (by simp)) (hn (k, l) (by simp)).2 (by omega) hj hid,
        hpp]
      unfold expected
      by_cases h1 : j = k
      · subst h1
        rw [frameAt_none (j := j) (fs := (k', prev) :: older) (fun f hf => by have := hle f hf; omega)]
        have e2 : seen (j - 1) id ((j, l) :: (k', prev) :: older) = (prev.find id).isSome := by
          rw [seen_cons (j - 1), if_neg (by omega), seen_cons (j - 1), if_pos (by omega)]
        have e3 : seen (j + 1) id ((j, l) :: (k', prev) :: older) = false := seen_none (fun f hf => by
          rcases List.mem_cons.1 hf with rfl | hf
          · dsimp only; omega
          · have := hle f hf; omega)
        rw [e2, e3, frameAt_cons, if_pos rfl]
        have h2 : ¬ j = j - 1 := by omega
        dsimp only
        cases l.find id with
        | none => rfl
        | some o =>
          cases prev.find id with
          | none => rfl
          | some po => simp [h2]
      · rw [frameAt_cons j k, if_neg (fun h => h1 h.symm)]
        by_cases h2 : j = k'
        · subst h2
          have e1 : j = k - 1 := by omega
          have e2 : seen (j - 1) id ((k, l) :: (j, prev) :: older) = seen (j - 1) id ((j, prev) :: older) := by
            rw [seen_cons (j - 1), if_neg (by omega)]
          have e3 : seen (j + 1) id ((k, l) :: (j, prev) :: older) = (l.find id).isSome := by
            rw [seen_cons (j + 1), if_pos (by omega)]
          have e4 : seen (j + 1) id ((j, prev) :: older) = false := seen_none (fun f hf => by
            rcases List.mem_cons.1 hf with rfl | hf
            · dsimp only; omega
            · have := hle f (List.mem_cons_of_mem _ hf); omega)
          rw [e2, e3, e4, frameAt_cons, if_pos rfl]
          dsimp only
          cases prev.find id with
          | none => cases l.find id <;> rfl
          | some po =>
            dsimp only
            cases l.find id with
            | none => simp
            | some o =>
              cases seen (j - 1) id ((j, prev) :: older) <;> simp [e1]
        · have e1 : seen (j - 1) id ((k, l) :: (k', prev) :: older) = seen (j - 1) id ((k', prev) :: older) ∨
              frameAt j ((k', prev) :: older) = none := by
            by_cases h3 : k = j - 1
            · right
              apply frameAt_none
              intro f hf; have := hle f hf; omega
            · left; rw [seen_cons (j - 1), if_neg h3]
          have e2 : seen (j + 1) id ((k, l) :: (k', prev) :: older) = seen (j + 1) id ((k', prev) :: older) := by
            rw [seen_cons (j + 1), if_neg (by omega)]
          have h3 : ¬ j = k - 1 := by omega
          rw [e2]
          have e5 : (match l.find id, prev.find id with
            | some o, some po =>
              (if (!seen (k' - 1) id ((k', prev) :: older)) = true ∧ j = k - 1 then
                [(⟨.stereo, [keyOf .X j, keyOf .S id], po⟩ : Factor D)] else []) ++
                (if j = k then [⟨.stereo, [keyOf .X j, keyOf .S id], o⟩] else [])
            | _, _ => []) = [] := by
            cases l.find id with
            | none => rfl
            | some o =>
              cases prev.find id with
              | none => rfl
              | some po => simp [h1, h3]
          rw [e5, List.append_nil]
          rcases e1 with e1 | e1
          · rw [e1]
          · rw [e1]

theorem stereoOk_frames {log : List (Op Val D × Resp Val D)} (h : StereoOk log) : ∀ f ∈ frames log, f.2.Sorted := by
  induction log with
  | nil => simp [frames]
  | cons e log ih =>
    obtain ⟨op, r⟩ := e
    by_cases h1 : ∃ k l, op = .stereo k l
    · obtain ⟨k, l, rfl⟩ := h1
      obtain ⟨rfl, h2, _, h4⟩ := h
      intro f hf
      rcases List.mem_cons.1 hf with rfl | hf
      · exact h2
      · exact ih h4 f hf
    · have hf : frames ((op, r) :: log) = frames log := by
        cases op <;> cases r <;> first | rfl | (exfalso; exact h1 ⟨_, _, rfl⟩)
      have hs : StereoOk log := by
        cases op <;> cases r <;> first | exact h | (exfalso; exact h1 ⟨_, _, rfl⟩)
      rw [hf]; exact ih hs

/-! ## C09 -/

/-- C09: stereo frames given with consecutive keys (and non-negative ids). The stereo factors between pose `k` and
landmark `id` in the graph are: exactly one, carrying the observation made in frame `k`, if `id` was seen in frame `k`
and in frame `k - 1` or `k + 1`; none otherwise. -/
theorem C09_one_factor_per_observation {er : EndRead} {log : Log Val D} {s : GM Val D} (h : Reaches er log s)
    (hok : StereoOk log.reverse) (hc : Consecutive (frames log.reverse))
    (hn : ∀ f ∈ frames log.reverse, 0 ≤ f.1 ∧ ∀ e ∈ f.2, 0 ≤ e.1) (k id : Int) (hk : 0 ≤ k) (hid : 0 ≤ id) :
    (allFactors s).filter (fun f => decide (f.kind = .stereo ∧ f.vars = [keyOf .X k, keyOf .S id])) =
      match (frameAt k (frames log.reverse)).bind (fun l => l.find id) with
      | none => []
      | some obs =>
        if seen (k - 1) id (frames log.reverse) = true ∨ seen (k + 1) id (frames log.reverse) = true then
          [⟨.stereo, [keyOf .X k, keyOf .S id], obs⟩]
        else [] := by
  classical
  obtain ⟨t, ht, e⟩ := C06_all_factors h hok
  have hperm : (allFactors s).Perm ((created log.reverse).map Prod.snd) := by
    rw [e]; exact ht.perm.map _
  have h1 := hperm.filter (fun f => decide (f.kind = .stereo ∧ f.vars = [keyOf .X k, keyOf .S id]))
  have h2 : ((created log.reverse).map Prod.snd).filter
      (fun f => decide (f.kind = .stereo ∧ f.vars = [keyOf .X k, keyOf .S id])) =
      expected (frames log.reverse) k id := by
    rw [← stereoAll_filter hc (stereoOk_frames hok) hn hk hid, ← created_stereo, List.filter_filter]
    apply List.filter_congr
    intro a _
    by_cases h1 : a.kind = .stereo <;> by_cases h2 : a.vars = [keyOf .X k, keyOf .S id] <;> simp [h1, h2]
  rw [h2] at h1
  unfold expected at h1
  cases hf : frameAt k (frames log.reverse) with
  | none => rw [hf] at h1; exact List.perm_nil.1 h1
  | some l =>
    rw [hf] at h1
    dsimp only at h1
    simp only [Option.bind_some]
    cases ho : l.find id with
    | none => rw [ho] at h1; exact List.perm_nil.1 h1
    | some o =>
      rw [ho] at h1
      dsimp only at h1 ⊢
      by_cases hseen : (seen (k - 1) id (frames log.reverse) || seen (k + 1) id (frames log.reverse)) = true
      · rw [if_pos hseen] at h1
        rw [if_pos (by simpa using hseen)]
        exact List.perm_singleton.1 h1
      · rw [if_neg hseen] at h1
        rw [if_neg (by simpa using hseen)]
        exact List.perm_nil.1 h1

/-! ## C10 -/

/-- `nextFrame fs k l k'`: in the frames `fs` (newest first) the frame right after `(k, l)` has key `k'`. -/
def nextFrame (fs : List (Int × OMap Int D)) (k : Int) (l : OMap Int D) (k' : Int) : Prop :=
  ∃ l' newer older, fs = newer ++ (k', l') :: (k, l) :: older

theorem stereoAll_mem {fs : List (Int × OMap Int D)} {f : Factor D} (h : f ∈ stereoAll fs) :
    ∃ k l id obs, (k, l) ∈ fs ∧ (id, obs) ∈ l ∧ (f = ⟨.stereo, [keyOf .X k, keyOf .S id], obs⟩ ∨
      ∃ k', nextFrame fs k l k' ∧ f = ⟨.stereo, [keyOf .X (k' - 1), keyOf .S id], obs⟩) := by
  induction fs with
  | nil => simp [stereoAll] at h
  | cons e rest ih =>
    obtain ⟨k, l⟩ := e
    simp only [stereoAll, List.mem_append] at h
    rcases h with h | h
    · obtain ⟨k1, l1, id, obs, h1, h2, h3⟩ := ih h
      refine ⟨k1, l1, id, obs, List.mem_cons_of_mem _ h1, h2, ?_⟩
      rcases h3 with h3 | ⟨k', ⟨l', newer, older, h4⟩, h5⟩
      · exact Or.inl h3
      · exact Or.inr ⟨k', ⟨l', (k, l) :: newer, older, by rw [h4]; rfl⟩, h5⟩
    · cases rest with
      | nil => simp [frameFactors] at h
      | cons e' older =>
        obtain ⟨k', prev⟩ := e'
        simp only [frameFactors, stereoFactors, List.mem_flatMap] at h
        obtain ⟨⟨id, o⟩, he, h⟩ := h
        dsimp only at h
        cases hp : prev.find id with
        | none => rw [hp] at h; simp at h
        | some po =>
          rw [hp] at h
          dsimp only at h
          rw [List.mem_append] at h
          rcases h with h | h
          · split at h
            · simp only [List.mem_singleton] at h
              exact ⟨k', prev, id, po, by simp, OMap.mem_of_find hp, Or.inr ⟨k, ⟨l, [], older, rfl⟩, h⟩⟩
            · simp at h
          · simp only [List.mem_singleton] at h
            exact ⟨k, l, id, o, by simp, he, Or.inl h⟩

/-- What the code does for frames in any increasing keys: a factor that carries an observation made in frame `k` is
attached to pose `k`, or to the pose *before the next frame's key*. These differ when the keys are not consecutive. -/
theorem C10_attachment_partial {er : EndRead} {log : Log Val D} {s : GM Val D} (h : Reaches er log s)
    (hok : StereoOk log.reverse) {f : Factor D} (hf : f ∈ allFactors s) (hk : f.kind = .stereo) :
    ∃ k l id obs, (k, l) ∈ frames log.reverse ∧ (id, obs) ∈ l ∧
      (f = ⟨.stereo, [keyOf .X k, keyOf .S id], obs⟩ ∨
        ∃ k', nextFrame (frames log.reverse) k l k' ∧ f = ⟨.stereo, [keyOf .X (k' - 1), keyOf .S id], obs⟩) := by
  classical
  obtain ⟨t, ht, e⟩ := C06_all_factors h hok
  have hperm : (allFactors s).Perm ((created log.reverse).map Prod.snd) := by
    rw [e]; exact ht.perm.map _
  apply stereoAll_mem
  rw [← created_stereo, List.mem_filter]
  exact ⟨hperm.mem_iff.1 hf, by simpa using hk⟩

/-- C10 for consecutive keys: every stereo factor carries an observation made in some frame and is attached to the pose
of that frame. -/
theorem C10_consecutive_partial {er : EndRead} {log : Log Val D} {s : GM Val D} (h : Reaches er log s)
    (hok : StereoOk log.reverse) (hc : Consecutive (frames log.reverse)) {f : Factor D} (hf : f ∈ allFactors s)
    (hk : f.kind = .stereo) :
    ∃ k l id obs, (k, l) ∈ frames log.reverse ∧ (id, obs) ∈ l ∧ f = ⟨.stereo, [keyOf .X k, keyOf .S id], obs⟩ := by
  obtain ⟨k, l, id, obs, h1, h2, h3⟩ := C10_attachment_partial h hok hf hk
  refine ⟨k, l, id, obs, h1, h2, ?_⟩
  rcases h3 with h3 | ⟨k', ⟨l', newer, older, h4⟩, h5⟩
  · exact h3
  · have : k' = k + 1 := by
      rw [h4] at hc
      clear h4 h1
      induction newer with
      | nil => exact hc.1
      | cons e newer ih =>
        apply ih
        cases newer with
        | nil => exact hc.2
        | cons e' newer => exact hc.2
    rw [h5, this]
    simp

/-- Two frames, at keys 0 and 2, both with feature 7. -/
def demoGap : List (Op Nat Nat) :=
  [.setExtrinsic, .setCalibration (fun _ o => o), .setPose 0 1, .setPose 2 3, .stereo 0 [(7, 100)],
   .stereo 2 [(7, 102)]]

/-- Executable form of `StereoOk`. -/
def stereoOkB : List (Op Val D × Resp Val D) → Bool
  | [] => true
  | (.stereo k l, .done) :: e =>
    decide (l.Pairwise (fun a b => a.1 < b.1)) && (frames e).all (fun f => decide (f.1 < k)) && stereoOkB e
  | (.stereo _ _, _) :: _ => false
  | _ :: e => stereoOkB e

theorem stereoOk_of_b {log : List (Op Val D × Resp Val D)} (h : stereoOkB log = true) : StereoOk log := by
  induction log with
  | nil => trivial
  | cons e log ih =>
    obtain ⟨op, r⟩ := e
    cases op <;> first | exact ih h | skip
    rename_i k l
    cases r <;> simp [stereoOkB] at h
    exact ⟨rfl, h.1.1, fun f hf => h.1.2 f.1 f.2 hf, ih h.2⟩

/-- C10 fails: with frames at keys 0 and 2, the observation 100, made in frame 0 only, is attached to pose 1. -/
theorem C10_fails_with_gap : ∃ (log : Log Nat Nat) (s : GM Nat Nat), Reaches .nodeCount log s ∧ StereoOk log.reverse ∧
    frames log.reverse = [(2, [(7, 102)]), (0, [(7, 100)])] ∧
    (⟨.stereo, [keyOf .X 1, keyOf .S 7], 100⟩ : Factor Nat) ∈ allFactors s ∧
    ∀ f ∈ allFactors s, f.meas = 100 → f.vars ≠ [keyOf .X 0, keyOf .S 7] := by
  refine ⟨_, _, reaches_get (ops := demoGap) (by decide +kernel), stereoOk_of_b (by decide +kernel),
    by decide +kernel, by decide +kernel, by decide +kernel⟩

/-! ## C11 -/

theorem landmarksOf_spec (s : GM Val D) (ids : List Int)
    (hall : ∀ id ∈ ids, ∃ v, stereoLandmark s id = .ok v) (acc : OMap Int Val) (ha : acc.Sorted)
    (hacc : ∀ id v, acc.find id = some v → stereoLandmark s id = .ok v) :
    ∃ m, landmarksOf s ids acc = .ok m ∧
      ∀ id v, m.find id = some v ↔ ((id ∈ ids ∨ (acc.find id).isSome = true) ∧ stereoLandmark s id = .ok v) := by
  induction ids generalizing acc with
  | nil =>
    refine ⟨acc, rfl, fun id v => ?_⟩
    constructor
    · intro h; exact ⟨Or.inr (by rw [h]; rfl), hacc id v h⟩
    · rintro ⟨h1, h2⟩
      rcases h1 with h1 | h1
      · simp at h1
      · obtain ⟨w, hw⟩ := Option.isSome_iff_exists.1 h1
        have := hacc id w hw
        rw [h2] at this
        injection this with this
        rw [hw, this]
  | cons a ids ih =>
    obtain ⟨va, hva⟩ := hall a List.mem_cons_self
    have hacc' : ∀ id v, (acc.emplace a va).find id = some v → stereoLandmark s id = .ok v := by
      intro id v h
      rw [OMap.find_emplace ha] at h
      split at h
      · rename_i e; subst e
        cases hf : acc.find id with
        | none => simp [hf] at h; rw [← h]; exact hva
        | some w => simp [hf] at h; rw [← h]; exact hacc id w hf
      · exact hacc id v h
    obtain ⟨m, h1, h2⟩ := ih (fun id h => hall id (List.mem_cons_of_mem _ h)) (acc.emplace a va)
      (OMap.sorted_emplace ha _ _) hacc'
    refine ⟨m, ?_, fun id v => ?_⟩
    · show (do let v ← getVal s .S a; landmarksOf s ids (acc.emplace a v)) = _
      have : getVal s .S a = .ok va := hva
      rw [this]; exact h1
    · rw [h2, OMap.find_emplace ha, List.mem_cons]
      by_cases e : id = a
      · subst e; simp
      · simp [e]

theorem mem_tracks_of_lookup {fs : List (Int × OMap Int D)} {k id : Int} :
    id ∈ ((tracks fs).filter (fun e => decide (e.1 = k))).map Prod.snd ↔ (k, id) ∈ tracks fs := by
  rw [List.mem_map]
  constructor
  · rintro ⟨⟨a, b⟩, h, rfl⟩
    rw [List.mem_filter] at h
    obtain ⟨h1, h2⟩ := h
    simp at h2; subst h2; exact h1
  · intro h
    exact ⟨(k, id), List.mem_filter.2 ⟨h, by simp⟩, rfl⟩

theorem landmarks_valued {er : EndRead} {log : Log Val D} {s : GM Val D} (h : Reaches er log s) {k id : Int}
    (hid : id ∈ lookup s.landmarkIds k) : ∃ v, stereoLandmark s id = .ok v := by
  unfold lookup at hid
  cases hf : s.landmarkIds.find k with
  | none => rw [hf] at hid; simp at hid
  | some l =>
    rw [hf] at hid
    obtain ⟨raw, h1, h2⟩ := (reaches_linv h).valued k l id hf hid
    obtain ⟨v, hv⟩ := contains_iff.1 h2
    refine ⟨v, ?_⟩
    unfold stereoLandmark getVal
    rw [h1]
    simp [hv]

theorem mem_flat_lookup {m : OMap Int (List Int)} (hs : m.Sorted) {id : Int} :
    id ∈ m.flatMap (fun e => e.2) ↔ ∃ k, id ∈ lookup m k := by
  rw [List.mem_flatMap]
  constructor
  · rintro ⟨e, he, hid⟩
    refine ⟨e.1, ?_⟩
    unfold lookup
    rw [OMap.find_of_mem hs he]; exact hid
  · rintro ⟨k, hid⟩
    unfold lookup at hid
    cases hf : m.find k with
    | none => rw [hf] at hid; simp at hid
    | some l => rw [hf] at hid; exact ⟨(k, l), OMap.mem_of_find hf, hid⟩

/-- C11: in no history does `stereo_landmarks` throw (or read outside the containers). -/
theorem C11_query_never_throws {er : EndRead} {log : Log Val D} {s : GM Val D} (h : Reaches er log s) (k : Int) :
    ∃ m, stereoLandmarks s k = .ok m := by
  unfold stereoLandmarks
  split
  · obtain ⟨m, hm, _⟩ := landmarksOf_spec s (s.landmarkIds.flatMap (fun e => e.2)) (by
      intro id hid
      obtain ⟨k, hk⟩ := (mem_flat_lookup (reaches_linv h).ids).1 hid
      exact landmarks_valued h hk) [] OMap.sorted_nil (by simp)
    exact ⟨m, hm⟩
  · cases hf : s.landmarkIds.find k with
    | none => exact ⟨[], rfl⟩
    | some ids =>
      obtain ⟨m, hm, _⟩ := landmarksOf_spec s ids (by
        intro id hid
        apply landmarks_valued h (k := k)
        unfold lookup; rw [hf]; exact hid) [] OMap.sorted_nil (by simp)
      exact ⟨m, hm⟩

/-- C11: `stereo_landmarks(k)` returns exactly the landmarks that start being tracked at key `k`, with the position that
`stereo_landmark` reports. -/
theorem C11_landmarks_at_key {er : EndRead} {log : Log Val D} {s : GM Val D} (h : Reaches er log s)
    (hok : StereoOk log.reverse) (k : Int) (hk : k ≠ -1) :
    ∃ m, stereoLandmarks s k = .ok m ∧
      ∀ id v, m.find id = some v ↔ ((k, id) ∈ tracks (frames log.reverse) ∧ stereoLandmark s id = .ok v) := by
  have hi := landmarks_invariant h hok k
  unfold stereoLandmarks
  rw [if_neg hk]
  cases hf : s.landmarkIds.find k with
  | none =>
    refine ⟨[], rfl, fun id v => ?_⟩
    rw [← mem_tracks_of_lookup, ← hi]
    unfold lookup; rw [hf]; simp
  | some ids =>
    have hl : lookup s.landmarkIds k = ids := by unfold lookup; rw [hf]; rfl
    obtain ⟨m, hm, h2⟩ := landmarksOf_spec s ids (by
      intro id hid
      exact landmarks_valued h (k := k) (by rw [hl]; exact hid)) [] OMap.sorted_nil (by simp)
    refine ⟨m, hm, fun id v => ?_⟩
    rw [h2, ← mem_tracks_of_lookup, ← hi, hl]
    simp

theorem tracked_iff_tracks {fs : List (Int × OMap Int D)} (hs : ∀ f ∈ fs, f.2.Sorted) {id : Int} :
    Tracked id fs ↔ ∃ k, (k, id) ∈ tracks fs := by
  induction fs with
  | nil => simp [Tracked, tracks]
  | cons f rest ih =>
    obtain ⟨k, l⟩ := f
    have ih := ih (fun f hf => hs f (List.mem_cons_of_mem _ hf))
    cases rest with
    | nil => simp [Tracked, tracks, frameIds]
    | cons f' older =>
      obtain ⟨k', prev⟩ := f'
      have hmem : ∀ j, (j, id) ∈ tracks ((k, l) :: (k', prev) :: older) ↔
          (j, id) ∈ tracks ((k', prev) :: older) ∨ (j = k ∧ (l.find id).isSome = true ∧ (prev.find id).isSome = true ∧
            newlyTracked (older.head?.map Prod.snd) id = true) := by
        intro j
        show (j, id) ∈ tracks ((k', prev) :: older) ++ _ ↔ _
        rw [List.mem_append]
        refine or_congr_right ?_
        simp only [frameIds, trackedIds, List.map_map, List.mem_map, Function.comp, List.mem_filter,
          Bool.and_eq_true, Prod.mk.injEq]
        constructor
        · rintro ⟨⟨a, b⟩, ⟨h1, h2, h3⟩, rfl, rfl⟩
          exact ⟨rfl, by rw [OMap.find_of_mem (hs (k, l) (by simp)) h1]; rfl, h2, h3⟩
        · rintro ⟨rfl, h1, h2, h3⟩
          obtain ⟨b, hb⟩ := Option.isSome_iff_exists.1 h1
          exact ⟨(id, b), ⟨OMap.mem_of_find hb, h2, h3⟩, rfl, rfl⟩
      show (_ ∨ Tracked id ((k', prev) :: older)) ↔ _
      rw [ih]
      constructor
      · rintro (⟨h1, h2⟩ | ⟨j, hj⟩)
        · by_cases hnt : newlyTracked (older.head?.map Prod.snd) id = true
          · exact ⟨k, (hmem k).2 (Or.inr ⟨rfl, h1, h2, hnt⟩)⟩
          · -- already tracked before
            cases older with
            | nil => exact absurd rfl hnt
            | cons f2 older =>
              obtain ⟨k2, l2⟩ := f2
              have h3 : (l2.find id).isSome = true := by
                simp only [List.head?_cons, Option.map_some, newlyTracked] at hnt
                cases hf : l2.find id with
                | none => rw [hf] at hnt; simp at hnt
                | some _ => rfl
              obtain ⟨j, hj⟩ := ih.1 (Or.inl ⟨h2, h3⟩)
              exact ⟨j, (hmem j).2 (Or.inl hj)⟩
        · exact ⟨j, (hmem j).2 (Or.inl hj)⟩
      · rintro ⟨j, hj⟩
        rcases (hmem j).1 hj with hj | ⟨_, h1, h2, _⟩
        · exact Or.inr ⟨j, hj⟩
        · exact Or.inl ⟨h1, h2⟩

/-- C11: `stereo_landmarks()` (key `-1`) returns all landmarks ever tracked, i.e. seen in two successive frames. -/
theorem C11_all_landmarks {er : EndRead} {log : Log Val D} {s : GM Val D} (h : Reaches er log s)
    (hok : StereoOk log.reverse) :
    ∃ m, stereoLandmarks s (-1) = .ok m ∧
      ∀ id v, m.find id = some v ↔ (Tracked id (frames log.reverse) ∧ stereoLandmark s id = .ok v) := by
  have hi := landmarks_invariant h hok
  have hs := (reaches_linv h).ids
  unfold stereoLandmarks
  rw [if_pos rfl]
  obtain ⟨m, hm, h2⟩ := landmarksOf_spec s (s.landmarkIds.flatMap (fun e => e.2)) (by
    intro id hid
    obtain ⟨k, hk⟩ := (mem_flat_lookup hs).1 hid
    exact landmarks_valued h hk) [] OMap.sorted_nil (by simp)
  refine ⟨m, hm, fun id v => ?_⟩
  rw [h2, tracked_iff_tracks (stereoOk_frames hok), mem_flat_lookup hs]
  simp only [hi, mem_tracks_of_lookup]
  simp

/-- C11: `has_stereo_landmark(id)` is true exactly for landmarks seen in two successive frames. -/
theorem C11_has_landmark {er : EndRead} {log : Log Val D} {s : GM Val D} (h : Reaches er log s)
    (hok : StereoOk log.reverse) (id : Int) (h0 : 0 ≤ id) (h1 : id < 2 ^ 56) :
    ∃ b, hasStereoLandmark s id = .ok b ∧ (b = true ↔ Tracked id (frames log.reverse)) := by
  have hk := keyOf_eq (c := .S) h0 h1
  refine ⟨s.values.contains (keyOf .S id), ?_, has_landmark_invariant h hok hk⟩
  unfold hasStereoLandmark hasVal
  rw [hk]; rfl

/-! ## The hypotheses are met -/

/-- Three frames at keys 0, 1, 2, an extraction in between, and other factors. -/
def demoStereo : List (Op Nat Nat) :=
  [.setExtrinsic, .setCalibration (fun _ o => o), .setPose 0 1, .create .priorPose 0 5, .stereo 0 [(3, 30), (7, 100)],
   .setPose 1 2, .create .betweenPose 1 6, .stereo 1 [(3, 31), (4, 41), (7, 101)], .extractFactors 0, .setPose 2 3,
   .create .priorPose 0 8, .stereo 2 [(4, 42), (7, 102)], .create .betweenPose 2 7]

/-- Executable form of `Consecutive`. -/
def consecutiveB : List (Int × OMap Int D) → Bool
  | (k, _) :: (k', l') :: earlier => decide (k = k' + 1) && consecutiveB ((k', l') :: earlier)
  | _ => true

theorem consecutive_of_b {fs : List (Int × OMap Int D)} (h : consecutiveB fs = true) : Consecutive fs := by
  induction fs with
  | nil => trivial
  | cons e fs ih =>
    cases fs with
    | nil => trivial
    | cons e' fs =>
      simp only [consecutiveB, Bool.and_eq_true, decide_eq_true_eq] at h
      exact ⟨h.1, ih h.2⟩

example : ∃ log s, Reaches (Val := Nat) (D := Nat) .nodeCount log s ∧ StereoOk log.reverse ∧
    Consecutive (frames log.reverse) ∧ (∀ f ∈ frames log.reverse, 0 ≤ f.1 ∧ ∀ e ∈ f.2, 0 ≤ e.1) ∧
    tracks (frames log.reverse) = [(1, 3), (1, 7), (2, 4)] ∧
    (waiting log.reverse).map Prod.fst = [1, 1, 1, 1, 1, 0, 2, 2, 2, 2] ∧
    (extractedFactors log.reverse).length = 1 ∧ (allFactors s).length = 11 :=
  ⟨_, _, reaches_get (ops := demoStereo) (by decide +kernel), stereoOk_of_b (by decide +kernel),
    consecutive_of_b (by decide +kernel), by decide +kernel, by decide +kernel, by decide +kernel,
    by decide +kernel, by decide +kernel⟩

end Graph

end Serpent
