import Verif.Model.Crash
import Verif.Props.Isam

/-!
# Exceptions of the optimiser (C154)
-/

namespace Serpent

namespace Graph

variable {Val D O : Type}

/-- The states of all factors created so far have been set. -/
def StatesSet (log : ILog Val D) : Prop :=
  ∀ e ∈ created (calls log).reverse, ∀ c j, c ≠ Fam.S → 0 ≤ j → j < 2 ^ 56 → keyOf c j ∈ e.2.vars → HasBeenSet c j (calls log)

theorem factorErrors_ok {g : GM Val D} (fs : List (Factor D)) (h : ∀ f ∈ fs, ∀ raw ∈ f.vars, g.values.contains raw = true) :
    factorErrors g fs = .ok () := by
  induction fs with
  | nil => rfl
  | cons f fs ih =>
    unfold factorErrors factorError
    rw [if_pos (List.all_eq_true.2 fun raw hr => h f List.mem_cons_self raw hr), Outcome.bind_ok]
    exact ih fun f' hf' => h f' (List.mem_cons_of_mem _ hf')

theorem keyToInt_pose {j : Int} (h0 : 0 ≤ j) (h1 : j < 2 ^ 31) : keyToInt (keyOf .X j) = j := by
  unfold keyToInt keyOf
  have e : Fam.X.chr = 120 := rfl
  rw [e]
  have h : (120 * 2 ^ 56 + j.toNat) % 2 ^ 32 = j.toNat := by omega
  rw [h, if_pos (by omega)]
  omega

theorem factorsInformation_ok {g : GM Val D} (fs : List (Factor D))
    (h : ∀ f ∈ fs, (∀ raw ∈ f.vars, g.values.contains raw = true) ∧
      (f.kind = .stereo → g.extrinsicSet = true ∧ g.calib.isSome = true ∧
        ∃ j id, 0 ≤ j ∧ j < 2 ^ 31 ∧ f.vars = [keyOf .X j, keyOf .S id])) : factorsInformation g fs = .ok () := by
  induction fs with
  | nil => rfl
  | cons f fs ih =>
    obtain ⟨h1, h2⟩ := h f List.mem_cons_self
    have he : factorInformation g f = .ok () := by
      unfold factorInformation factorError
      rw [if_pos (List.all_eq_true.2 h1), Outcome.bind_ok]
      split
      · rename_i x l hk hv
        obtain ⟨hx, hc, j, id, h0, hj, hvars⟩ := h2 hk
        rw [hv] at hvars h1
        simp only [List.cons.injEq, and_true] at hvars
        obtain ⟨rfl, rfl⟩ := hvars
        obtain ⟨c, hc'⟩ := Option.isSome_iff_exists.1 hc
        obtain ⟨v, hv'⟩ := contains_iff.1 (h1 (keyOf .X j) (by simp))
        obtain ⟨w, hw⟩ := contains_iff.1 (h1 (keyOf .S id) (by simp))
        unfold stereoInformation
        rw [keyToInt_pose h0 hj, (getVal_iff h0 (by omega)).2 hv', Outcome.bind_ok, if_neg (by simp [hx]), hc', hw]
      · rfl
    unfold factorsInformation
    rw [he, Outcome.bind_ok]
    exact ih fun f' hf' => h f' (List.mem_cons_of_mem _ hf')

/-- If all variables of all factors have values, and there is a camera for the stereo factors, then printing is harmless. -/
theorem rethrown_kept {g : GM Val D} (hv : ∀ f ∈ allFactors g, ∀ raw ∈ f.vars, g.values.contains raw = true)
    (hs : ∀ f ∈ allFactors g, f.kind = .stereo → g.extrinsicSet = true ∧ g.calib.isSome = true ∧
      ∃ j id, 0 ≤ j ∧ j < 2 ^ 31 ∧ f.vars = [keyOf .X j, keyOf .S id])
    (print verbose : Bool) (near : Key) (hn : ∃ v, g.values.find near = some v) :
    rethrown print verbose g (.indeterminate near) = .ok (.indeterminate near) := by
  have hsub : ∀ f ∈ factorsForKey g near, f ∈ allFactors g := by
    intro f hf
    obtain ⟨e, he, hm⟩ := List.mem_flatMap.1 hf
    exact List.mem_flatMap.2 ⟨e, he, (List.mem_filter.1 hm).1⟩
  have h1 : precrash print verbose g = .ok () := by
    unfold precrash
    split
    · exact factorErrors_ok _ hv
    · rfl
  have h2 : printInformation g near = .ok () := by
    obtain ⟨v, hv'⟩ := hn
    unfold printInformation
    rw [hv']
    dsimp only
    rw [factorErrors_ok _ fun f hf => hv f (hsub f hf), Outcome.bind_ok]
    exact factorsInformation_ok _ fun f hf => ⟨hv f (hsub f hf), hs f (hsub f hf)⟩
  unfold rethrown
  rw [h1, Outcome.bind_ok]
  cases print <;> simp [h2]

/-- The variables of a stereo factor. -/
theorem created_stereo_vars (log : List (Op Val D × Resp Val D)) : ∀ e ∈ created log, e.2.kind = .stereo →
    ∃ j id, j ≤ e.1 ∧ e.2.vars = [keyOf .X j, keyOf .S id] := by
  intro e
  induction log with
  | nil => intro he; exact absurd he List.not_mem_nil
  | cons a log ih =>
    obtain ⟨op, r⟩ := a
    cases op with
    | create kind k d =>
      cases r with
      | done =>
        intro he hs
        rcases List.mem_append.1 he with he | he
        · exact ih he hs
        · rw [List.mem_singleton.1 he] at hs
          cases hs
      | _ => exact ih
    | stereo k l =>
      cases r with
      | done =>
        intro he hs
        rcases List.mem_append.1 he with he | he
        · exact ih he hs
        · obtain ⟨f, hf, rfl⟩ := List.mem_map.1 he
          unfold frameFactors at hf
          split at hf
          · exact absurd hf List.not_mem_nil
          · obtain ⟨a, -, ha⟩ := List.mem_flatMap.1 hf
            split at ha
            · exact absurd ha List.not_mem_nil
            · rcases List.mem_append.1 ha with ha | ha
              · split at ha
                · rw [List.mem_singleton.1 ha]
                  exact ⟨k - 1, a.1, by dsimp only; omega, rfl⟩
                · exact absurd ha List.not_mem_nil
              · rw [List.mem_singleton.1 ha]
                exact ⟨k, a.1, le_refl _, rfl⟩
      | _ => exact ih
    | _ => exact ih

/-- **C154** (partial: only this exception keeps its kind). If the optimiser reports a variable without enough constraints, that
exception leaves the callback, whatever is printed before, in every history of the graph manager in which the states of the
factors have been set. -/
theorem C154_kept_partial {er : EndRead} {api : OptApi Val D O} {o : O} {log : ILog Val D} {s : RIsam Val D O}
    (h : IReaches er api o log s) (hok : StereoOk (calls log).reverse) (hset : StatesSet log)
    (hk : ∀ e ∈ created (calls log).reverse, e.1 < 2 ^ 31) (hx : s.gm.extrinsicSet = true) (hc : s.gm.calib.isSome = true)
    (print verbose : Bool) (near : Key) (hn : ∃ v, s.gm.values.find near = some v) :
    rethrown print verbose s.gm (.indeterminate near) = .ok (.indeterminate near) := by
  obtain ⟨glog, hl⟩ := link_exists h
  have hok' := hl.stereo hok
  have hvars : ∀ e ∈ created glog.reverse, ∀ raw ∈ e.2.vars, s.gm.values.contains raw = true := by
    intro e he raw hraw
    rcases created_vars hl.reaches hok' e he raw hraw with ⟨c, j, hc, h0, h1, hj, rfl⟩ | ⟨id, k', h0, h1, hk', htr, rfl⟩
    · refine hl.set c j h0 h1 (hset e ?_ c j hc h0 h1 hraw)
      rw [← hl.created]
      exact he
    · exact (has_landmark_invariant hl.reaches hok' (keyOf_eq h0 h1)).2 ((tracked_iff_tracks (stereoOk_frames hok')).2 ⟨k', htr⟩)
  have hall : ∀ f ∈ allFactors s.gm, ∃ e ∈ created glog.reverse, e.2 = f := fun f hf =>
    mem_of_listsInKeyOrder (C06_all_factors hl.reaches hok') hf
  refine rethrown_kept (fun f hf => ?_) (fun f hf hs => ?_) print verbose near hn
  · obtain ⟨e, he, rfl⟩ := hall f hf
    exact hvars e he
  · obtain ⟨e, he, rfl⟩ := hall f hf
    refine ⟨hx, hc, ?_⟩
    obtain ⟨j, id, hj, hv⟩ := created_stereo_vars _ e he hs
    have hlt := hk e (by rw [← hl.created]; exact he)
    have hX : Fam.X.chr = 120 := rfl
    have hS : Fam.S.chr = 115 := rfl
    rcases created_vars hl.reaches hok' e he (keyOf .X j) (by rw [hv]; simp) with
      ⟨c, j', -, h0, h1, hj', hkey⟩ | ⟨id', -, h0, h1, -, -, hkey⟩
    · have hc' : c.chr = 98 ∨ c.chr = 112 ∨ c.chr = 115 ∨ c.chr = 118 ∨ c.chr = 120 := by cases c <;> simp [Fam.chr]
      have hj2 : j'.toNat = j.toNat := by
        unfold keyOf at hkey
        omega
      refine ⟨j', id, h0, by omega, ?_⟩
      rw [hv]
      unfold keyOf
      rw [hj2]
    · exfalso
      unfold keyOf at hkey
      omega

/-- **C154 fails** for all other exceptions: their kind and message are lost. -/
theorem C154_fails_sliced (print verbose : Bool) (g : GM Val D) (message : String) (e : Exn)
    (h : rethrown print verbose g (.other message) = .ok e) : e = .base := by
  unfold rethrown at h
  cases hp : precrash print verbose g with
  | ok u => rw [hp] at h; exact (Outcome.ok.inj h).symm
  | throws => rw [hp] at h; cases h
  | ub => rw [hp] at h; cases h

/-- It is that without printing, whatever the graph is. -/
example (g : GM Val D) : rethrown true false g (.other "message") = .ok .base := rfl

theorem statesSet_of_disciplined {log : ILog Val D} {k : Int} (hk : ∀ e ∈ created (calls log).reverse, e.1 ≤ k)
    (h : Disciplined (log ++ [(.optimise k, .threw)])) : StatesSet log := fun e he c j =>
  h log k .threw [] rfl e he (hk e he) c j

/-- The hypotheses are met by the demonstration history, which has landmarks and marginalised states. -/
example : IReaches .nodeCount demoApi ⟨[], OMap.sorted_nil⟩ demoIsamLog demoIsamState ∧ StereoOk (calls demoIsamLog).reverse ∧
    StatesSet demoIsamLog ∧ (∀ e ∈ created (calls demoIsamLog).reverse, e.1 < 2 ^ 31) ∧ demoIsamState.gm.extrinsicSet = true ∧
    demoIsamState.gm.calib.isSome = true ∧ (∃ v, demoIsamState.gm.values.find (keyOf .S 7) = some v) ∧
    (factorsForKey demoIsamState.gm (keyOf .S 7)).length = 2 := by
  have hk : (created (calls demoIsamLog).reverse).all (fun e => decide (e.1 ≤ 3)) = true := by decide +kernel
  have hk : ∀ e ∈ created (calls demoIsamLog).reverse, e.1 ≤ 3 := fun e he => of_decide_eq_true (List.all_eq_true.1 hk e he)
  refine ⟨demoIsam_reaches, stereoOk_of_b (by decide +kernel), ?_, fun e he => by have := hk e he; omega, by decide +kernel,
    by decide +kernel, ?_, by decide +kernel⟩
  · exact statesSet_of_disciplined hk (disciplined_of_b (by decide +kernel))
  · exact Option.isSome_iff_exists.1 (by decide +kernel)

/-- A factor between two poses of which the second is not set. -/
def demoUnset : List (IOp Nat Nat) :=
  [.call .setExtrinsic, .call (.setCalibration (fun p d => p + d)), .call (.setPose 0 10), .call (.create .betweenPose 1 1)]

theorem demoUnset_runs :
    (irun .nodeCount demoApi demoUnset ([], { opt := (⟨[], OMap.sorted_nil⟩, []) })).isSome = true := by decide +kernel

/-- **C154 fails** if a state of a factor has no value: printing what is known about the variable throws, and that exception leaves
the callback instead. -/
theorem C154_fails_printing : ∃ log s, IReaches .nodeCount demoApi ⟨[], OMap.sorted_nil⟩ log s ∧
    s.gm.extrinsicSet = true ∧ s.gm.calib.isSome = true ∧ s.gm.values.find (keyOf .X 0) = some 10 ∧
    rethrown true false s.gm (.indeterminate (keyOf .X 0)) = .throws ∧
    rethrown false false s.gm (.indeterminate (keyOf .X 0)) = .ok (.indeterminate (keyOf .X 0)) :=
  ⟨_, _, ireaches_get demoUnset_runs, by decide +kernel, by decide +kernel, by decide +kernel, by decide +kernel, by decide +kernel⟩

end Graph

end Serpent
