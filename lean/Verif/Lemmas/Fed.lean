import Verif.Lemmas.Unmarg

/-!
# Lemmas on the variables of factors
-/

namespace Serpent

namespace Graph

open M

variable {Val D : Type}

theorem mem_stereoFactors {k : Int} {prev : OMap Int D} {pp : Option (OMap Int D)} {l : OMap Int D} {f : Factor D}
    (h : f ∈ stereoFactors k prev pp l) : ∃ e ∈ l, ∃ po, prev.find e.1 = some po ∧
      ((newlyTracked pp e.1 = true ∧ f.vars = [keyOf .X (k - 1), keyOf .S e.1]) ∨
        f.vars = [keyOf .X k, keyOf .S e.1]) := by
  unfold stereoFactors at h
  rw [List.mem_flatMap] at h
  obtain ⟨e, he, hf⟩ := h
  refine ⟨e, he, ?_⟩
  cases hp : prev.find e.1 with
  | none => rw [hp] at hf; simp at hf
  | some po =>
    rw [hp] at hf
    refine ⟨po, rfl, ?_⟩
    simp only [List.mem_append] at hf
    rcases hf with hf | hf
    · split at hf
      · rename_i hn
        simp at hf; exact Or.inl ⟨hn, by rw [hf]⟩
      · simp at hf
    · simp at hf; exact Or.inr (by rw [hf])

/-- A loop over the features that returns only met representable ids, and a representable previous key for newly
tracked features. -/
theorem stereoLoop_range {k : Int} {xk : Key} (hxk : sym .X k = .ok xk) (p : Val) (prev : OMap Int D)
    (pp : Option (OMap Int D)) (l : OMap Int D) (s : GM Val D) (hv : VInv s)
    (hok : (stereoLoop k p prev pp l s).1 = .ok ()) :
    ∀ e ∈ l, (prev.find e.1).isSome = true → (∃ raw, sym .S e.1 = .ok raw) ∧
      (newlyTracked pp e.1 = true → ∃ raw, sym .X (k - 1) = .ok raw) := by
  induction l generalizing s with
  | nil => simp
  | cons e l ih =>
    obtain ⟨id, obs⟩ := e
    unfold stereoLoop at hok
    rw [bind_run] at hok
    rcases stereoFeature_cases hv hxk p prev pp id obs with
      ⟨hn, e⟩ | ⟨_, e, _⟩ | ⟨e, _⟩ | ⟨po, xp, lk, bp, hpo, hxp, hl, hc, e⟩
    · rw [e] at hok
      intro x hx hp
      rcases List.mem_cons.1 hx with rfl | hx
      · rw [hn] at hp; simp at hp
      · exact ih s hv hok x hx hp
    · rw [e] at hok; simp at hok
    · rcases hr : stereoFeature k p prev pp id obs s with ⟨o, s'⟩
      rw [hr] at hok e
      dsimp only at e
      subst e
      simp at hok
    · rw [e] at hok
      intro x hx hp
      rcases List.mem_cons.1 hx with rfl | hx
      · exact ⟨⟨_, hl⟩, fun h => ⟨_, hxp (by rw [isFirst_eq]; exact h)⟩⟩
      · exact ih _ (vinv_featState hv hl) hok x hx hp

theorem syms_range {l : List (Fam × Int)} {ks : List Key} (h : syms l = .ok ks) :
    ∀ v ∈ l, ∃ raw, sym v.1 v.2 = .ok raw := by
  induction l generalizing ks with
  | nil => simp
  | cons e l ih =>
    obtain ⟨c, j⟩ := e
    simp only [syms] at h
    cases hk : sym c j with
    | throws => rw [hk] at h; simp at h
    | ub => rw [hk] at h; simp at h
    | ok raw =>
      rw [hk] at h
      simp only [Outcome.bind_ok] at h
      cases hr : syms l with
      | throws => rw [hr] at h; simp at h
      | ub => rw [hr] at h; simp at h
      | ok rs =>
        intro v hv
        rcases List.mem_cons.1 hv with rfl | hv
        · exact ⟨raw, hk⟩
        · exact ih hr v hv

/-- The variables a factor created for key `k` may involve. -/
def VarOk (k : Int) (trs : List (Int × Int)) (raw : Key) : Prop :=
  (∃ c j, c ≠ Fam.S ∧ 0 ≤ j ∧ j < 2 ^ 56 ∧ j ≤ k ∧ raw = keyOf c j) ∨
  ∃ id k', 0 ≤ id ∧ id < 2 ^ 56 ∧ k' ≤ k ∧ (k', id) ∈ trs ∧ raw = keyOf .S id

theorem VarOk.mono {k : Int} {a b : List (Int × Int)} {raw : Key} (h : VarOk k a raw) (hab : ∀ x ∈ a, x ∈ b) :
    VarOk k b raw := by
  rcases h with h | ⟨id, k', h1, h2, h3, h4, h5⟩
  · exact Or.inl h
  · exact Or.inr ⟨id, k', h1, h2, h3, hab _ h4, h5⟩

theorem created_vars {er : EndRead} {log : Log Val D} {s : GM Val D} (h : Reaches er log s)
    (hok : StereoOk log.reverse) :
    ∀ e ∈ created log.reverse, ∀ raw ∈ e.2.vars, VarOk e.1 (tracks (frames log.reverse)) raw := by
  induction h with
  | init => simp [created]
  | @step log s s' op r hr hs ih =>
    rw [List.reverse_append, List.reverse_cons, List.reverse_nil, List.nil_append, List.singleton_append] at hok ⊢
    rcases step_quiet hs with ⟨kind, k, d, rfl⟩ | ⟨k, l, rfl⟩ | ⟨m, rfl⟩ | ⟨m, rfl⟩ | ⟨h1, h2, h3, h4, _, _, q⟩
    · have hs' : respOf (fun _ => .done) (createFactor kind k d s) = some (r, s') := hs
      obtain ⟨_, h2⟩ := respOf_some hs'
      rcases h2 with ⟨_, h2, rfl⟩ | ⟨_, rfl⟩
      · intro e he
        have he' : e ∈ created log.reverse ++ [(k, ⟨.plain kind, specVars kind k, d⟩)] := he
        rcases List.mem_append.1 he' with he' | he'
        · exact ih hok e he'
        · simp at he'
          subst he'
          have hsy : ∃ ks, syms (factorVars kind k) = .ok ks := by
            unfold createFactor at h2
            cases hx : syms (factorVars kind k) with
            | ok ks => exact ⟨ks, rfl⟩
            | throws => rw [hx] at h2; simp at h2
            | ub => rw [hx] at h2; simp at h2
          obtain ⟨ks, hks⟩ := hsy
          have hrange := syms_range hks
          have hall : ∀ v ∈ factorVars kind k, v.1 ≠ Fam.S ∧ v.2 ≤ k := by
            cases kind <;> simp [factorVars] <;> omega
          have hvars : specVars kind k = (factorVars kind k).map (fun v => keyOf v.1 v.2) := by
            cases kind <;> rfl
          intro raw hraw
          simp only [hvars, List.mem_map] at hraw
          obtain ⟨v, hv, rfl⟩ := hraw
          obtain ⟨raw, hraw⟩ := hrange v hv
          obtain ⟨a, b, _⟩ := sym_ok_iff.1 hraw
          exact Or.inl ⟨v.1, v.2, (hall v hv).1, a, b, (hall v hv).2, rfl⟩
      · exact ih hok
    · obtain ⟨rfl, hsorted, hk, hok'⟩ := hok
      have ih := ih hok'
      have hfi := factors_invariant hr hok'
      have hs' : respOf (fun _ => .done) (createStereo k l s) = some (.done, s') := hs
      obtain ⟨_, h2⟩ := respOf_some hs'
      rcases h2 with ⟨_, h2, _⟩ | ⟨_, h2⟩
      · intro e he
        have he' : e ∈ created log.reverse ++ (frameFactors k l (frames log.reverse)).map (fun f => (k, f)) := he
        rw [frames_stereo]
        rcases List.mem_append.1 he' with he' | he'
        · intro raw hraw
          exact (ih e he' raw hraw).mono (fun x hx => by simp only [tracks]; exact List.mem_append_left _ hx)
        · obtain ⟨f, hf, rfl⟩ := List.mem_map.1 he'
          dsimp only
          have hemp : s.features.emplace k l = s.features ++ [(k, l)] := emplace_last (by
            intro e he
            exact hk e (by rw [← hfi.features]; exact List.mem_reverse.2 he))
          cases hfr : frames log.reverse with
          | nil => rw [hfr] at hf; simp [frameFactors] at hf
          | cons fr older =>
            obtain ⟨kp, prev⟩ := fr
            rw [hfr] at hf
            simp only [frameFactors] at hf
            have hrange : (∃ xk, sym .X k = .ok xk) ∧ ∀ e ∈ l, (prev.find e.1).isSome = true →
                (∃ raw, sym .S e.1 = .ok raw) ∧
                (newlyTracked (older.head?.map Prod.snd) e.1 = true → ∃ raw, sym .X (k - 1) = .ok raw) := by
              rcases createStereo_cases k l s with ⟨_, e⟩ | ⟨_, hlen, e⟩ | ⟨_, e⟩ |
                ⟨xk, p, c1, c2, cur, prev', older', _, hrev, hxk, _, _, e⟩
              · rw [e] at h2; simp at h2
              · rw [hemp] at hlen
                have := congrArg List.length hfi.features
                rw [hfr] at this
                simp at this hlen
                rw [hlen] at this
                simp at this
              · rw [e] at h2; simp at h2
              · rw [hemp, List.reverse_append, hfi.features, hfr] at hrev
                simp at hrev
                obtain ⟨⟨rfl, rfl⟩, ⟨rfl, rfl⟩, rfl⟩ := hrev
                rw [e] at h2
                exact ⟨⟨xk, hxk⟩, stereoLoop_range hxk p _ _ _ (loopState (frameState s k l) k)
                  ⟨(reaches_vinv hr).values, (reaches_vinv hr).newValues, (reaches_vinv hr).coherent,
                    (reaches_vinv hr).symbols⟩ h2⟩
            obtain ⟨e, he, po, hpo, hvars⟩ := mem_stereoFactors hf
            obtain ⟨⟨xk, hxk⟩, hrange⟩ := hrange
            obtain ⟨⟨raw1, hs1⟩, hs2⟩ := hrange e he (by rw [hpo]; rfl)
            have hS : VarOk k (tracks ((k, l) :: (kp, prev) :: older)) (keyOf .S e.1) := by
              obtain ⟨a, b, _⟩ := sym_ok_iff.1 hs1
              have htr : Tracked e.1 ((k, l) :: (kp, prev) :: older) := by
                left
                refine ⟨?_, by rw [hpo]; rfl⟩
                rw [OMap.find_of_mem hsorted he]; rfl
              have hallsorted : ∀ f ∈ ((k, l) :: (kp, prev) :: older), f.2.Sorted := by
                intro f hf
                rcases List.mem_cons.1 hf with rfl | hf
                · exact hsorted
                · exact stereoOk_frames hok' f (by rw [hfr]; exact hf)
              obtain ⟨k', hk'⟩ := (tracked_iff_tracks hallsorted).1 htr
              refine Or.inr ⟨e.1, k', a, b, ?_, hk', rfl⟩
              have := tracks_lt (k := k + 1) (fs := (k, l) :: (kp, prev) :: older) (by
                intro f hf
                rcases List.mem_cons.1 hf with rfl | hf
                · dsimp only; omega
                · have := hk f (by rw [hfr]; exact hf); omega) _ hk'
              dsimp only at this; omega
            intro raw hraw
            rcases hvars with ⟨hn, hv⟩ | hv
            · rw [hv] at hraw
              simp at hraw
              obtain ⟨raw2, hs3⟩ := hs2 hn
              obtain ⟨a, b, _⟩ := sym_ok_iff.1 hs3
              rcases hraw with rfl | rfl
              · exact Or.inl ⟨.X, k - 1, by simp, a, b, by omega, rfl⟩
              · exact hS
            · rw [hv] at hraw
              simp at hraw
              obtain ⟨a, b, _⟩ := sym_ok_iff.1 hxk
              rcases hraw with rfl | rfl
              · exact Or.inl ⟨.X, k, by simp, a, b, by omega, rfl⟩
              · exact hS
      · simp at h2
    · exact ih hok
    · exact ih hok
    · obtain ⟨e1, e2, _, e4⟩ := spec_quiet (r := r) h1 h2 h3 log.reverse
      rw [e1, e2]; exact ih (e4 hok)

theorem waiting_sub (log : List (Op Val D × Resp Val D)) : ∀ e ∈ waiting log, e ∈ created log := by
  induction log with
  | nil => simp [waiting]
  | cons x log ih =>
    obtain ⟨op, r⟩ := x
    cases op <;> cases r <;> simp only [waiting, created] <;> first
      | exact ih
      | (intro e he
         rcases List.mem_append.1 he with h | h
         · exact List.mem_append_left _ (ih e h)
         · exact List.mem_append_right _ h)
      | (intro e he; exact ih e (List.mem_filter.1 he).1)

/-- After a value extraction up to `m` that returns, the variables of every factor created for a key up to `m` have been
extracted, provided its states have values. -/
theorem extraction_feeds {er : EndRead} {log : Log Val D} {s s' : GM Val D} (h : Reaches er log s)
    (hok : StereoOk log.reverse) (hx : ExtractOk log.reverse) {m : Int} {vs : OMap Key Val}
    (hs : step er (.extractValues m) s = some (.values vs, s')) {e : Int × Factor D}
    (he : e ∈ created log.reverse) (hle : e.1 ≤ m)
    (hset : ∀ c j, c ≠ Fam.S → 0 ≤ j → j < 2 ^ 56 → keyOf c j ∈ e.2.vars → s.values.contains (keyOf c j) = true) :
    ∀ raw ∈ e.2.vars, raw ∈ extractedKeys log.reverse ++ vs.map Prod.fst := by
  obtain ⟨hstate, hland, _⟩ := C08_extraction h hok hx hs
  intro raw hraw
  by_cases hex : raw ∈ extractedKeys log.reverse
  · exact List.mem_append_left _ hex
  · apply List.mem_append_right
    rcases created_vars h hok e he raw hraw with ⟨c, j, hc, h0, h1, hj, rfl⟩ | ⟨id, k', h0, h1, hk', htr, rfl⟩
    · obtain ⟨v, hv⟩ := contains_iff.1 (hset c j hc h0 h1 hraw)
      have := (hstate c j v hc h0 h1).2 ⟨by omega, hex, (getVal_iff h0 h1).2 hv⟩
      exact List.mem_map.2 ⟨_, OMap.mem_of_find this, rfl⟩
    · have htrk : Tracked id (frames log.reverse) := (tracked_iff_tracks (stereoOk_frames hok)).2 ⟨k', htr⟩
      obtain ⟨v, hv⟩ := contains_iff.1 ((has_landmark_invariant h hok (keyOf_eq h0 h1)).2 htrk)
      have := (hland id v h0 h1).2 ⟨⟨k', by omega, htr⟩, hex, (getVal_iff h0 h1).2 hv⟩
      exact List.mem_map.2 ⟨_, OMap.mem_of_find this, rfl⟩

end Graph

end Serpent
