import Verif.Lemmas.BackEndSched

/-!
# The effect of a registration message
-/

namespace Serpent

namespace BackEnd

open Graph M

variable {Val D O C I : Type}

/-- What `add_registration_factor` does, case by case. -/
theorem addRegistrationFactor_cases (api : Api Val D O C I) (msg : RegMsg D C) (s : BE Val D O)
    (hV : VInv s.isam.gm) :
    (∃ k p raw0 raw1, key s.isam.gm "reg" 1 = .ok k ∧ timestamp s.isam.gm k = .ok msg.stamp ∧
      pose s.isam.gm (k - 1) = .ok p ∧ sym .X (k - 1) = .ok raw0 ∧ sym .X k = .ok raw1 ∧
      api.validCov msg.cov = false ∧ api.zeroSigma msg.cov = false ∧
      addRegistrationFactor api msg s = (.ok (), { s with isam := { s.isam with gm :=
        (addFactor k ⟨.plain .betweenPose, [raw0, raw1], msg.transform⟩
          (setState ((increment "reg" s.isam.gm).2) raw1 k (api.compose p msg.transform))).2 } })) ∨
    (addRegistrationFactor api msg s = (.throws, { s with isam := { s.isam with gm := (increment "reg" s.isam.gm).2 } })) := by
  have hinc : ∀ g : GM Val D, ∃ o, (increment "reg" g).1 = o := fun g => ⟨_, rfl⟩
  cases hf : s.isam.gm.keys.find "reg" with
  | none =>
    right
    simp [addRegistrationFactor, bind_run, onG, onIsam, onGm, increment, hf]
  | some kp =>
    obtain ⟨k, pr⟩ := kp
    have hr : increment "reg" s.isam.gm = (.ok (), { s.isam.gm with keys := s.isam.gm.keys.assign "reg" (k + 1, pr) }) := by
      simp [increment, hf]
    generalize hg : ({ s.isam.gm with keys := s.isam.gm.keys.assign "reg" (k + 1, pr) } : GM Val D) = g at hr
    have hk1 : key g "reg" 0 = .ok (k + 1) := by
      subst hg; simp only [key]
      have : ∀ (m : OMap String (Int × Nat)) (x : Int × Nat), (m.find "reg").isSome → (m.assign "reg" x).find "reg" = some x := by
        intro m x
        induction m with
        | nil => simp
        | cons a m ih =>
          obtain ⟨a1, a2⟩ := a
          intro h
          simp only [OMap.assign, OMap.alter]
          split
          · simp [OMap.find_cons]
          · split
            · rename_i h2; simp [OMap.find_cons, h2]
            · rename_i h1 h2
              rw [OMap.find_cons, if_neg h2] at h
              rw [OMap.find_cons, if_neg h2]
              exact ih h
      rw [this _ _ (by simp [hf])]
      simp
    have hk0 : key g "reg" (-1) = .ok k := by
      simp only [key] at hk1 ⊢
      split at hk1
      · rename_i k' p' hk'
        simp at hk1
        simp; omega
      · simp at hk1
    have hts : ∀ j, timestamp g j = timestamp s.isam.gm j := by intro j; subst hg; rfl
    have hpo : ∀ j, pose g j = pose s.isam.gm j := by intro j; subst hg; rfl
    have hVg : VInv g := by
      subst hg; exact ⟨hV.values, hV.newValues, hV.coherent, hV.symbols⟩
    have hkey : key s.isam.gm "reg" 1 = .ok (k + 1) := by simp [key, hf]
    rw [hr]
    unfold addRegistrationFactor
    simp only [bind_run, onG, onIsam, onGm, hr, read, hk1, hts]
    cases ht : timestamp s.isam.gm (k + 1) with
    | throws => right; rfl
    | ub => simp only [timestamp] at ht; split at ht <;> simp at ht
    | ok t =>
      simp only
      by_cases hst : t = msg.stamp
      · subst hst
        rw [if_neg (by simp)]
        cases hvc : api.validCov msg.cov with
        | true => right; simp
        | false =>
          cases hz : api.zeroSigma msg.cov with
          | true => right; simp
          | false =>
            simp only [Bool.false_eq_true, if_false, bind_run, read, hk0, hpo]
            cases hp : pose s.isam.gm k with
            | throws => right; rfl
            | ub =>
              simp only [pose, getVal] at hp
              cases hsy : sym .X k with
              | throws => simp [hsy] at hp
              | ub => exact absurd hsy (sym_ne_ub _ _)
              | ok raw => simp only [hsy, Outcome.bind_ok] at hp; split at hp <;> simp at hp
            | ok p =>
              simp only [onIsam, onGm, setPose]
              obtain ⟨raw0, h0⟩ : ∃ raw, sym .X k = .ok raw := by
                simp only [pose, getVal] at hp
                cases hsy : sym .X k with
                | throws => simp [hsy] at hp
                | ub => exact absurd hsy (sym_ne_ub _ _)
                | ok raw => exact ⟨raw, rfl⟩
              cases h1 : sym .X (k + 1) with
              | ub => exact absurd h1 (sym_ne_ub _ _)
              | throws => right; rw [set_throws _ h1]
              | ok raw1 =>
                left
                refine ⟨k + 1, p, raw0, raw1, hkey, ht, by simpa using hp, by simpa using h0, h1, trivial, trivial, ?_⟩
                rw [set_ok hVg h1]
                simp only [createFactor, factorVars, syms]
                have e : k + 1 - 1 = k := by omega
                simp [e, h0, h1, addFactor]
      · rw [if_pos hst]; right; rfl

/-- The effect of an accepted message. -/
theorem reg_accepted (api : Api Val D O C I) (msg : RegMsg D C) (s s' : BE Val D O)
    (hV : VInv s.isam.gm) (hF : s.isam.gm.factors.Sorted) (h : addRegistrationFactor api msg s = (.ok (), s')) :
    ∃ k p, key s.isam.gm "reg" 1 = .ok k ∧ timestamp s.isam.gm k = .ok msg.stamp ∧ pose s.isam.gm (k - 1) = .ok p ∧
      api.validCov msg.cov = false ∧ api.zeroSigma msg.cov = false ∧
      pose s'.isam.gm k = .ok (api.compose p msg.transform) ∧
      ∀ j, factorsAt s'.isam.gm j = factorsAt s.isam.gm j ++
        (if j = k then [⟨.plain .betweenPose, [keyOf .X (k - 1), keyOf .X k], msg.transform⟩] else []) := by
  rcases addRegistrationFactor_cases api msg s hV with ⟨k, p, raw0, raw1, hk, ht, hp, h0, h1, hv, hz, hr⟩ | hr
  · rw [hr] at h
    simp only [Prod.mk.injEq, true_and] at h
    have hi : ∀ g : GM Val D, (increment "reg" g).2.values = g.values ∧ (increment "reg" g).2.factors = g.factors := by
      intro g; unfold increment; split <;> exact ⟨rfl, rfl⟩
    refine ⟨k, p, hk, ht, hp, hv, hz, ?_, ?_⟩
    · rw [← h]
      simp only [pose, getVal, h1, Outcome.bind_ok, addFactor, modify_run, setState]
      rw [(hi _).1, OMap.find_assign hV.values]
      simp
    · intro j
      rw [← h]
      simp only [factorsAt, addFactor, modify_run, setState]
      rw [(hi _).2]
      have := lookup_alter hF k j
        [(⟨.plain .betweenPose, [raw0, raw1], msg.transform⟩ : Factor D)]
      unfold lookup at this
      rw [this, ← keyOf_of_sym h0, ← keyOf_of_sym h1]
      by_cases e : j = k <;> simp [e]
  · rw [hr] at h; simp at h

/-- The effect of a rejected message. -/
theorem reg_rejected (api : Api Val D O C I) (msg : RegMsg D C) (s s' : BE Val D O)
    (hV : VInv s.isam.gm) (h : addRegistrationFactor api msg s = (.throws, s')) :
    s'.isam.gm.factors = s.isam.gm.factors ∧ s'.isam.gm.newFactors = s.isam.gm.newFactors ∧
    s'.isam.gm.values = s.isam.gm.values := by
  rcases addRegistrationFactor_cases api msg s hV with ⟨k, p, raw0, raw1, hk, ht, hp, h0, h1, hv, hz, hr⟩ | hr
  · rw [hr] at h; simp at h
  · rw [hr] at h
    simp only [Prod.mk.injEq, true_and] at h
    rw [← h]
    simp only
    unfold increment
    split <;> simp

/-- The optimiser leaves the stored factors alone. -/
theorem keeps_factors_optimise (F : OMap Int (List (Factor D))) (er : EndRead) (api : OptApi Val D O) (k : Int) :
    Keeps (fun s : Isam Val D O => s.gm.factors = F) (optimise er api k) := by
  have hon : ∀ {α : Type} {m : M (GM Val D) α}, Keeps (fun g : GM Val D => g.factors = F) m →
      Keeps (fun s : Isam Val D O => s.gm.factors = F) (onGm m) :=
    fun hm s hs => hm _ hs
  unfold optimise
  refine Keeps.bind (hon (fun g h => h)) fun fs => ?_
  refine Keeps.bind (hon (keeps_extractNewValues (fun _ _ _ _ h => h) (fun _ _ _ _ h => h) _ _)) fun vs => ?_
  refine Keeps.bind Keeps.get fun s => Keeps.bind (Keeps.lift _) fun o => ?_
  refine Keeps.bind (Keeps.modify fun s h => h) fun _ => Keeps.bind (Keeps.modify fun s h => h) fun _ => ?_
  refine Keeps.bind (hon (keeps_updateFromValues (fun _ _ _ _ h => h) _)) fun _ => ?_
  refine Keeps.bind Keeps.get fun s => Keeps.ite ?_ (Keeps.pure _)
  unfold marginalise
  refine Keeps.bind Keeps.get fun s => Keeps.ite Keeps.throw ?_
  refine Keeps.bind (hon (fun g h => h)) fun ks => ?_
  refine Keeps.bind (Keeps.modify fun s h => h) fun _ => Keeps.bind Keeps.get fun _ => Keeps.bind (Keeps.lift _) fun _ => ?_
  exact Keeps.modify fun s h => h

/-- The registration callback after `add_registration_factor` leaves the stored factors alone. -/
theorem registrationBody_factors {er : EndRead} {api : Api Val D O C I} {cfg : Cfg} {msg : RegMsg D C} {s s1 : BE Val D O}
    (h1 : addRegistrationFactor api msg s = (.ok (), s1)) :
    (registrationBody er api cfg msg s).2.isam.gm.factors = s1.isam.gm.factors := by
  unfold registrationBody
  rw [bind_run, h1]
  simp only
  have hk : Keeps (fun b : BE Val D O => b.isam.gm.factors = s1.isam.gm.factors) (do
      let k ← read (fun g => key g "reg" 0)
      let m ← read (fun g => minimumKey g 0)
      if m = k then do
        optimiseB er api k
        branch cfg.imu (pure ()) (updateVelocity api "reg")
        publish api cfg k
      else pure ()) := by
    refine Keeps.bind (keeps_read _) fun k => Keeps.bind (keeps_read _) fun m => Keeps.ite ?_ (Keeps.pure _)
    refine Keeps.bind ?_ fun _ => Keeps.bind (keeps_branch (Keeps.pure _) ?_) fun _ => keeps_publish (fun _ _ h => h) _ _ _
    · unfold optimiseB
      refine Keeps.bind (Keeps.modify fun s h => h) fun _ => Keeps.bind ?_ fun _ => Keeps.bind (keeps_read _) fun _ => Keeps.pure _
      exact fun b hb => keeps_factors_optimise s1.isam.gm.factors er api.opt k b.isam hb
    · unfold updateVelocity
      refine Keeps.bind (keeps_read _) fun k1 => ?_
      refine Keeps.bind (keeps_read _) fun p1 => ?_
      refine Keeps.bind (keeps_read _) fun k => ?_
      refine Keeps.bind (keeps_read _) fun p => ?_
      refine Keeps.bind (keeps_read _) fun dt => ?_
      exact fun b hb => (keeps_set (P := fun g : GM Val D => g.factors = s1.isam.gm.factors) (fun _ _ _ _ h => h) _ _ _) b.isam.gm hb
  exact hk s1 rfl

/-! ### Searching all factors -/

theorem flatMap_single {α β : Type} {m : OMap Int (List α)} (hs : m.Sorted) (q : Int × List α → List β) (j : Int) (b : List β)
    (hq : ∀ e ∈ m, q e = if e.1 = j then b else []) :
    m.flatMap q = if (m.find j).isSome then b else [] := by
  induction m with
  | nil => simp
  | cons e m ih =>
    rw [List.flatMap_cons, hq e (by simp), ih hs.tail (fun x hx => hq x (by simp [hx])), OMap.find_cons]
    have hlt := (OMap.sorted_cons.1 hs).1
    by_cases he : e.1 = j
    · have hn : OMap.find m j = none := OMap.find_eq_none_of_lt (fun x hx => he ▸ hlt x hx)
      simp [he, hn]
    · have : ¬ j = e.1 := fun h => he h.symm
      simp [he, this]

/-- All factors that satisfy `q`, when only one key has some. -/
theorem allFactors_filter {g : GM Val D} (hs : g.factors.Sorted) (q : Factor D → Bool) (j : Int)
    (hq : ∀ k, k ≠ j → (factorsAt g k).filter q = []) :
    (allFactors g).filter q = (factorsAt g j).filter q := by
  unfold allFactors
  rw [List.filter_flatMap]
  rw [flatMap_single hs _ j ((factorsAt g j).filter q)]
  · by_cases h : (g.factors.find j).isSome
    · simp [h]
    · have : g.factors.find j = none := by simpa using h
      simp [factorsAt, this]
  · intro e he
    have hf := OMap.find_of_mem hs he
    have : e.2 = factorsAt g e.1 := by simp [factorsAt, hf]
    rw [this]
    by_cases h : e.1 = j
    · simp [h]
    · simp [h, hq _ h]

theorem keyOf_inj {c : Fam} {j k : Int} (hj : 0 ≤ j) (hk : 0 ≤ k) (h : keyOf c j = keyOf c k) : j = k := by
  unfold keyOf at h
  have : j.toNat = k.toNat := Nat.add_left_cancel h
  omega

end BackEnd

end Serpent
