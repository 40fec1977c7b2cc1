import Verif.Lemmas.GraphRanges
import Verif.Props.GraphStereo

/-!
# Lemmas on the landmark ids waiting for extraction
-/

namespace Serpent

namespace Graph

open M

variable {Val D : Type}

/-- For every key, the ids waiting for extraction are either gone or all those filed for the key. -/
def AllOrNone (s : GM Val D) : Prop :=
  ∀ k, lookup s.newLandmarkIds k = [] ∨ lookup s.newLandmarkIds k = lookup s.landmarkIds k

theorem tracks_lt {fs : List (Int × OMap Int D)} {k : Int} (h : ∀ f ∈ fs, f.1 < k) : ∀ e ∈ tracks fs, e.1 < k := by
  induction fs with
  | nil => simp [tracks]
  | cons f fs ih =>
    obtain ⟨k', l⟩ := f
    intro e he
    simp only [tracks, List.mem_append, List.mem_map] at he
    rcases he with he | ⟨id, _, rfl⟩
    · exact ih (fun f hf => h f (List.mem_cons_of_mem _ hf)) e he
    · exact h (k', l) List.mem_cons_self

theorem frames_stereo {k : Int} {l : OMap Int D} (e : List (Op Val D × Resp Val D)) :
    frames ((.stereo k l, .done) :: e) = (k, l) :: frames e := rfl

/-- Invariant on the ids waiting for extraction. -/
structure NewIdsAre (s : GM Val D) (log : List (Op Val D × Resp Val D)) : Prop where
  all_or_none : AllOrNone s
  gone : ∀ k id, (k, id) ∈ tracks (frames log) → id ∈ lookup s.newLandmarkIds k ∨ keyOf .S id ∈ extractedKeys log
  fresh : NoReacquired (frames log) → ∀ k id, id ∈ lookup s.newLandmarkIds k → keyOf .S id ∉ extractedKeys log

theorem newIds_tracks {s : GM Val D} {log : List (Op Val D × Resp Val D)} (h : AllOrNone s)
    (hl : ∀ k, lookup s.landmarkIds k = ((tracks (frames log)).filter (fun e => decide (e.1 = k))).map Prod.snd)
    {k id : Int} (hid : id ∈ lookup s.newLandmarkIds k) : (k, id) ∈ tracks (frames log) := by
  rcases h k with e | e
  · rw [e] at hid; simp at hid
  · rw [e, hl] at hid
    exact mem_tracks_of_lookup.1 hid

theorem newIds_invariant {er : EndRead} {log : Log Val D} {s : GM Val D} (h : Reaches er log s)
    (hok : StereoOk log.reverse) (hx : ExtractOk log.reverse) : NewIdsAre s log.reverse := by
  induction h with
  | init => exact ⟨fun _ => Or.inl rfl, by simp [frames, tracks], by simp [lookup]⟩
  | @step log s s' op r hr hs ih =>
    have hF := reaches_finv hr
    rw [List.reverse_append, List.reverse_cons, List.reverse_nil, List.nil_append, List.singleton_append] at hok hx ⊢
    have hx' : ExtractOk log.reverse := fun m r h => hx m r (List.mem_cons_of_mem _ h)
    have quiet : (∀ k l, op ≠ .stereo k l) → (∀ m, op ≠ .extractValues m) → s'.landmarkIds = s.landmarkIds →
        s'.newLandmarkIds = s.newLandmarkIds → NewIdsAre s' ((op, r) :: log.reverse) := by
      intro hop hop2 e1 e2
      have h1 : frames ((op, r) :: log.reverse) = frames log.reverse := by
        cases op <;> cases r <;> simp_all [frames]
      have h2 : StereoOk log.reverse := by
        cases op <;> cases r <;> simp_all [StereoOk]
      have h3 := extractedKeys_other (op := op) (step_values_resp hs hop2) log.reverse
      have ih := ih h2 hx'
      refine ⟨?_, ?_, ?_⟩
      · unfold AllOrNone; rw [e1, e2]; exact ih.all_or_none
      · rw [h1, h3, e2]; exact ih.gone
      · rw [h1, h3, e2]; exact ih.fresh
    rcases step_quiet hs with ⟨kind, k, d, rfl⟩ | ⟨k, l, rfl⟩ | ⟨m, rfl⟩ | ⟨m, rfl⟩ | ⟨h1, h2, h3, h4, _, _, q⟩
    · have e := keeps_createFactor (P := fun t : GM Val D => t.landmarkIds = s.landmarkIds ∧
        t.newLandmarkIds = s.newLandmarkIds) (fun _ _ _ h => h) kind k d s ⟨rfl, rfl⟩
      have e' := step_state hs
      refine quiet (by simp) (by simp) ?_ ?_
      · rw [e']; exact e.1
      · rw [e']; exact e.2
    · obtain ⟨rfl, hsorted, hk, hok'⟩ := hok
      have ih := ih hok' hx'
      have hfi := factors_invariant hr hok'
      have hli := landmarks_invariant hr hok'
      have hs' : respOf (fun _ => .done) (createStereo k l s) = some (.done, s') := hs
      obtain ⟨e1, h2⟩ := respOf_some hs'
      rcases h2 with ⟨_, h2, _⟩ | ⟨_, h2⟩
      · obtain ⟨f1, f2⟩ := createStereo_effect (reaches_vinv hr) hF k l (by
          intro e he
          exact hk e (by rw [← hfi.features]; exact List.mem_reverse.2 he)) h2
        obtain ⟨_, _, g1, g2⟩ := lookup_append_frame hF k l
        have hlt := tracks_lt hk
        have hempty : lookup s.landmarkIds k = [] := by
          rw [hli, List.filter_eq_nil_iff.2]
          · rfl
          · intro e he; have := hlt e he; simp; omega
        have hempty' : lookup s.newLandmarkIds k = [] := by
          rcases ih.all_or_none k with e | e
          · exact e
          · rw [e, hempty]
        rw [hfi.features] at f2
        have n1 : ∀ k', lookup s'.newLandmarkIds k' = if k' = k then frameIds l (frames log.reverse)
            else lookup s.newLandmarkIds k' := by
          intro k'
          rw [e1, f2.newIds, g2, hempty', List.nil_append]
        have n2 : ∀ k', lookup s'.landmarkIds k' = if k' = k then frameIds l (frames log.reverse)
            else lookup s.landmarkIds k' := by
          intro k'
          rw [e1, f2.ids, g1, hempty, List.nil_append]
        have h3 : extractedKeys ((Op.stereo k l, Resp.done) :: log.reverse) = extractedKeys log.reverse :=
          extractedKeys_other (by simp) log.reverse
        refine ⟨?_, ?_, ?_⟩
        · intro k'
          rw [n1, n2]
          split
          · exact Or.inr rfl
          · exact ih.all_or_none k'
        · intro k' id hid
          rw [frames_stereo] at hid
          simp only [tracks, List.mem_append, List.mem_map] at hid
          rw [h3, n1]
          rcases hid with hid | ⟨id', hid', e⟩
          · have := hlt _ hid
            dsimp only at this
            rw [if_neg (by omega)]
            exact ih.gone k' id hid
          · obtain ⟨rfl, rfl⟩ := Prod.mk.inj e
            rw [if_pos rfl]; exact Or.inl hid'
        · intro hnr k' id hid
          rw [h3]
          rw [frames_stereo] at hnr
          unfold NoReacquired at hnr
          simp only [tracks, List.map_append, List.map_map] at hnr
          have hcomp : (Prod.snd ∘ fun j : Int => (k, j)) = _root_.id := rfl
          rw [hcomp, List.map_id] at hnr
          obtain ⟨hn1, hn2, hn3⟩ := List.nodup_append.1 hnr
          rw [n1] at hid
          split at hid
          · intro hmem
            have hval := ((reaches_same hr).1.2.2 _ hmem)
            obtain ⟨c, j, hcj⟩ := (reaches_vinv hr).symbols _ hval
            -- the id is a representable index, since the loop succeeded on it
            rename_i hkk
            subst hkk
            have hval' : ∃ v, stereoLandmark s' id = .ok v := by
              apply landmarks_valued (hr.step hs) (k := k')
              rw [n2, if_pos rfl]; exact hid
            obtain ⟨v, hv⟩ := hval'
            unfold stereoLandmark getVal at hv
            cases hsy : sym .S id with
            | ub => exact absurd hsy (sym_ne_ub _ _)
            | throws => rw [hsy] at hv; simp at hv
            | ok raw =>
              have hraw := keyOf_of_sym hsy
              rw [← hraw] at hval
              have htr := (has_landmark_invariant hr hok' hsy).1 hval
              rw [tracked_iff_tracks (stereoOk_frames hok')] at htr
              obtain ⟨k2, hk2⟩ := htr
              exact hn3 id (List.mem_map.2 ⟨_, hk2, rfl⟩) id hid rfl
          · exact ih.fresh hn1 k' id hid
      · simp at h2
    · refine quiet (by simp) (by simp) ?_ ?_
      · rw [step_state hs]; rfl
      · rw [step_state hs]; rfl
    · have hok' : StereoOk log.reverse := hok
      have ih := ih hok' hx'
      rcases step_extract hs with ⟨rfl, l, rfl⟩ | ⟨vs, rfl, hxx⟩
      · exact absurd rfl (hx m .threw List.mem_cons_self)
      · have hlv := reaches_linv hr
        obtain ⟨h0, hsort, hdue, hnot, hin, _, hst⟩ := extractNewValues_ok (reaches_vinv hr) hlv.newIds hxx
        have ek : extractedKeys ((Op.extractValues m, Resp.values vs) :: log.reverse)
            = extractedKeys log.reverse ++ vs.map Prod.fst := rfl
        have ef : frames ((Op.extractValues m, Resp.values vs) :: log.reverse) = frames log.reverse := rfl
        have n1 : ∀ k, lookup s'.newLandmarkIds k = if m < k then lookup s.newLandmarkIds k else [] := by
          intro k
          rw [hst]
          show lookup (s.newLandmarkIds.filter (fun e => decide (m < e.1))) k = _
          rw [lookup_filter _ (fun k => decide (m < k))]
          simp
        have n2 : s'.landmarkIds = s.landmarkIds := by rw [hst]
        have hmw : ∀ k id, id ∈ lookup s.newLandmarkIds k → k ≤ m →
            id ∈ idsWhere s.newLandmarkIds (fun k => decide (k ≤ m)) := by
          intro k id hid hk
          unfold lookup at hid
          cases hf : s.newLandmarkIds.find k with
          | none => rw [hf] at hid; simp at hid
          | some ids =>
            rw [hf] at hid
            exact mem_idsWhere.2 ⟨k, ids, OMap.mem_of_find hf, by simpa using hk, hid⟩
        refine ⟨?_, ?_, ?_⟩
        · intro k
          rw [n1, n2]
          split
          · exact ih.all_or_none k
          · exact Or.inl rfl
        · intro k id hid
          rw [ek, n1]
          rcases ih.gone k id hid with h | h
          · by_cases hk : m < k
            · rw [if_pos hk]; exact Or.inl h
            · right
              have hw := hmw k id h (by omega)
              obtain ⟨raw, hr1, hr2⟩ := hin id hw
              have hf := hdue raw (Or.inr ⟨id, hw, hr1⟩)
              obtain ⟨v, hv⟩ := contains_iff.1 hr2
              rw [hv] at hf
              rw [← keyOf_of_sym hr1]
              exact List.mem_append_right _ (List.mem_map.2 ⟨_, OMap.mem_of_find hf, rfl⟩)
          · exact Or.inr (List.mem_append_left _ h)
        · intro hnr k id hid
          rw [n1] at hid
          split at hid
          · rename_i hmk
            rw [ek, List.mem_append, not_or]
            refine ⟨ih.fresh hnr k id hid, ?_⟩
            intro hmem
            obtain ⟨e, he, hek⟩ := List.mem_map.1 hmem
            have hf := OMap.find_of_mem hsort he
            rw [hek] at hf
            have hli := landmarks_invariant hr hok'
            have htk := newIds_tracks ih.all_or_none hli hid
            obtain ⟨ids', _, _⟩ : ∃ l', s.newLandmarkIds.find k = some l' ∧ id ∈ l' := by
              unfold lookup at hid
              cases hf : s.newLandmarkIds.find k with
              | none => rw [hf] at hid; simp at hid
              | some ids => rw [hf] at hid; exact ⟨ids, rfl, hid⟩
            by_cases hd : Due m s.newLandmarkIds (keyOf .S id)
            · obtain ⟨v, hv⟩ := landmarks_valued hr (k := k) (id := id) (by
                rcases ih.all_or_none k with e | e
                · rw [e] at hid; simp at hid
                · rw [← e]; exact hid)
              unfold stereoLandmark getVal at hv
              cases hsy : sym .S id with
              | ub => exact absurd hsy (sym_ne_ub _ _)
              | throws => rw [hsy] at hv; simp at hv
              | ok raw =>
                have hraw := keyOf_of_sym hsy
                rw [← hraw] at hd
                rcases hd with ⟨c, hc, j, _, _, hj⟩ | ⟨id', hid', hsy'⟩
                · have := (sym_inj hj hsy).1
                  subst this; simp at hc
                · have := (sym_inj hsy' hsy).2
                  subst this
                  obtain ⟨k2, ids2, g1, g2, g3⟩ := mem_idsWhere.1 hid'
                  have htk2 := newIds_tracks ih.all_or_none hli (k := k2) (id := id') (by
                    unfold lookup; rw [OMap.find_of_mem hlv.newIds g1]; exact g3)
                  have := List.inj_on_of_nodup_map hnr htk htk2 rfl
                  have := (Prod.mk.inj this).1
                  simp at g2
                  omega
            · rw [hnot _ hd] at hf; simp at hf
          · simp at hid
    · exact quiet h1 h4 q.2.2.2.1 q.2.2.2.2

end Graph

end Serpent
