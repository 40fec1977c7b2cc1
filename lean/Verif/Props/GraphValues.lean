import Verif.Lemmas.GraphExtract
import Verif.Spec.Graph

/-!
# C03, C04, C13: values stored in the graph manager
-/

namespace Serpent

namespace Graph

open M

variable {Val D : Type}

/-! ## Lemmas -/

theorem keyOf_eq {c : Fam} {k : Int} (h0 : 0 ≤ k) (h1 : k < 2 ^ 56) : sym c k = .ok (keyOf c k) :=
  sym_ok_iff.2 ⟨h0, h1, rfl⟩

/-- One setter call on the variable `raw`. -/
theorem set_find {s : GM Val D} (hv : VInv s) {c c' : Fam} {k k' : Int} {raw : Key} (hk : sym c k = .ok raw) (v : Val) :
    ((set c' k' v s).1 = .ok () → (set c' k' v s).2.values.find raw =
      if c = c' ∧ k' = k then some v else s.values.find raw) ∧
    ((set c' k' v s).1 = .throws → (set c' k' v s).2 = s) := by
  cases hk' : sym c' k' with
  | ub => exact absurd hk' (sym_ne_ub _ _)
  | throws => rw [set_throws s hk']; exact ⟨by simp, fun _ => rfl⟩
  | ok raw' =>
    rw [set_ok hv hk']
    refine ⟨fun _ => ?_, by simp⟩
    simp only [setState]
    rw [OMap.find_assign hv.values]
    by_cases e : raw = raw'
    · subst e
      obtain ⟨e1, e2⟩ := sym_inj hk hk'
      simp [e1, e2]
    · rw [if_neg e, if_neg]
      rintro ⟨rfl, rfl⟩
      rw [hk] at hk'
      injection hk' with hk'
      exact e hk'

/-- A variable that is not a landmark is not touched by stereo frames. -/
theorem createStereo_find {s : GM Val D} (hv : VInv s) {c : Fam} (hc : c ≠ .S) {j : Int} {raw : Key}
    (hk : sym c j = .ok raw) (k : Int) (fs : OMap Int D) :
    (createStereo k fs s).2.values.find raw = s.values.find raw := by
  have := keeps_createStereo (P := fun t : GM Val D => VInv t ∧ t.values.find raw = s.values.find raw)
    (fun id v t ht => by
      refine ⟨keeps_vinv_set _ _ _ _ ht.1, ?_⟩
      cases hid : sym .S id with
      | ub => exact absurd hid (sym_ne_ub _ _)
      | throws => rw [set_throws t hid]; exact ht.2
      | ok raw' =>
        rw [set_ok ht.1 hid]
        simp only [setState]
        rw [OMap.find_assign ht.1.values, if_neg]
        · exact ht.2
        · intro e; subst e; exact hc (sym_inj hk hid).1)
    (fun s f n h => ⟨vinv_indep_factors s f n h.1, h.2⟩)
    (fun s f l n h => ⟨vinv_indep_stereo s f l n h.1, h.2⟩) k fs s ⟨hv, rfl⟩
  exact this.2

theorem state_invariant {er : EndRead} {log : Log Val D} {s : GM Val D} (h : Reaches er log s) (hf : FeedbackOk log)
    {c : Fam} (hc : c ≠ .S) {k : Int} {raw : Key} (hk : sym c k = .ok raw) :
    s.values.find raw = specState c k log.reverse := by
  induction h with
  | init => rfl
  | @step log s s' op r hr hs ih =>
    have ih := ih (fun vs r h => hf vs r (List.mem_append_left _ h))
    have hv := reaches_vinv hr
    have hraw : raw = keyOf c k := (sym_ok_iff.1 hk).2.2
    have hst := step_state hs
    rw [List.reverse_append, List.reverse_cons, List.reverse_nil, List.nil_append, List.singleton_append]
    -- calls of the form `set`
    have hset : ∀ c' k' v, (op = .setPose k' v ∧ c' = .X) ∨ (op = .setVelocity k' v ∧ c' = .V) ∨
        (op = .setImuBias k' v ∧ c' = .B) ∨ (op = .setBarometerBias k' v ∧ c' = .P) →
        respOf (fun _ => .done) (set c' k' v s) = some (r, s') →
        s'.values.find raw = specState c k ((op, r) :: log.reverse) := by
      intro c' k' v hop hresp
      obtain ⟨e1, h2⟩ := respOf_some hresp
      obtain ⟨j1, j2⟩ := set_find hv (c' := c') (k' := k') hk v
      rcases h2 with ⟨a, ha, hr'⟩ | ⟨ha, hr'⟩
      · rw [e1, j1 ha, ih, hr']
        rcases hop with ⟨rfl, rfl⟩ | ⟨rfl, rfl⟩ | ⟨rfl, rfl⟩ | ⟨rfl, rfl⟩ <;> rfl
      · rw [e1, j2 ha, ih, hr']
        rcases hop with ⟨rfl, rfl⟩ | ⟨rfl, rfl⟩ | ⟨rfl, rfl⟩ | ⟨rfl, rfl⟩ <;> rfl
    cases op with
    | setNamedKey n k p =>
      rw [hst]; simp only [stateAfter, setNamedKey, modify_run, specState]
      rw [← ih]; split <;> rfl
    | increment n =>
      rw [hst]; simp only [stateAfter, increment, specState]
      rw [← ih]; split <;> rfl
    | setPose k v => exact hset .X k v (by simp) hs
    | setVelocity k v => exact hset .V k v (by simp) hs
    | setImuBias k v => exact hset .B k v (by simp) hs
    | setBarometerBias k v => exact hset .P k v (by simp) hs
    | setNavstate k' p v =>
      have hs' : respOf (fun _ => .done) (setNavstate k' p v s) = some (r, s') := hs
      obtain ⟨e1, h2⟩ := respOf_some hs'
      unfold setNavstate at e1 h2
      rw [bind_run] at e1 h2
      have hx := set_find hv (c' := .X) (k' := k') hk p
      cases hk' : sym .X k' with
      | ub => exact absurd hk' (sym_ne_ub _ _)
      | throws =>
        rw [set_throws s hk'] at e1 h2
        dsimp only at e1 h2
        rcases h2 with ⟨a, ha, _⟩ | ⟨_, hr'⟩
        · simp at ha
        · rw [e1, hr']; exact ih
      | ok raw' =>
        have hk'v : sym .V k' = .ok (keyOf .V k') := by
          obtain ⟨a, b, _⟩ := sym_ok_iff.1 hk'
          exact keyOf_eq a b
        rw [set_ok hv hk'] at e1 h2 hx
        dsimp only at e1 h2
        have hv1 := vinv_setState hv hk' k' p
        have hvv := set_find hv1 (c' := .V) (k' := k') hk v
        rw [set_ok hv1 hk'v] at e1 h2 hvv
        rcases h2 with ⟨a, ha, hr'⟩ | ⟨ha, _⟩
        · rw [e1, hvv.1 rfl, hx.1 rfl, hr', ih]
          show _ = if c = .X ∧ k' = k then some p else if c = .V ∧ k' = k then some v else _
          by_cases e : c = .X
          · subst e; simp
          · simp [e]
        · simp at ha
    | setTimestamp k t => rw [hst]; exact ih
    | create kind k d =>
      rw [hst]
      exact keeps_createFactor (P := fun t : GM Val D => t.values.find raw = specState c _ log.reverse)
        (fun _ _ _ h => h) kind k d s ih
    | stereo k' fs =>
      rw [hst]
      simp only [stateAfter]
      rw [createStereo_find hv hc hk, ih]
      rfl
    | setExtrinsic => rw [hst]; exact ih
    | setCalibration bp => rw [hst]; exact ih
    | updateFromValues vs =>
      obtain ⟨hsorted, hdone⟩ := hf vs r (by simp)
      subst hdone
      have hs' : respOf (fun _ => .done) (updateFromValues vs s) = some (.done, s') := hs
      obtain ⟨e1, h2⟩ := respOf_some hs'
      obtain ⟨u1, u2, u3, u4⟩ := updateFromValues_spec vs hsorted s hv
      rcases h2 with ⟨a, ha, _⟩ | ⟨_, hr'⟩
      · have hall : ∀ e ∈ vs, s.values.contains e.1 = true := by
          intro e he
          by_contra hne
          have := (u4 ⟨e, he, by simpa using hne⟩).1
          rw [this] at ha; simp at ha
        rw [e1, (u3 hall).2, ih, hraw]
        rfl
      · simp at hr'
    | extractFactors m => rw [hst]; exact ih
    | extractValues m =>
      rw [hst]
      obtain ⟨n, l, e⟩ := extractNewValues_frame er m s
      simp only [stateAfter]
      rw [e]; exact ih
    | extractKeys m => rw [hst]; exact ih

/-! ## Theorems -/

/-- **C03.** After any history in which feedbacks succeeded, the getter of each of the four state quantities returns the
value most recently set or fed back for exactly that quantity and key, and throws iff there is none; at a negative key
it throws. -/
theorem C03_getters {er : EndRead} {log : Log Val D} {s : GM Val D} (h : Reaches er log s) (hf : FeedbackOk log)
    (k : Int) (hk : k < 2 ^ 56) :
    (0 ≤ k →
      pose s k = (match specState .X k log.reverse with | some v => .ok v | none => .throws) ∧
      velocity s k = (match specState .V k log.reverse with | some v => .ok v | none => .throws) ∧
      imuBias s k = (match specState .B k log.reverse with | some v => .ok v | none => .throws) ∧
      barometerBias s k = (match specState .P k log.reverse with | some v => .ok v | none => .throws) ∧
      hasPose s k = .ok (specState .X k log.reverse).isSome) ∧
    (k < 0 → pose s k = .throws ∧ velocity s k = .throws ∧ imuBias s k = .throws ∧ barometerBias s k = .throws) := by
  have main : ∀ c, c ≠ Fam.S → 0 ≤ k →
      getVal s c k = (match specState c k log.reverse with | some v => .ok v | none => .throws) ∧
      hasVal s c k = .ok (specState c k log.reverse).isSome := by
    intro c hc h0
    have hkey := keyOf_eq (c := c) h0 hk
    rw [← state_invariant h hf hc hkey]
    unfold getVal hasVal OMap.contains
    rw [hkey]
    exact ⟨rfl, rfl⟩
  have neg : ∀ c, k < 0 → getVal s c k = .throws := by
    intro c h0
    unfold getVal
    rw [sym_throws_iff.2 (by omega)]
    rfl
  refine ⟨fun h0 => ⟨(main .X (by simp) h0).1, (main .V (by simp) h0).1, (main .B (by simp) h0).1,
    (main .P (by simp) h0).1, (main .X (by simp) h0).2⟩, fun h0 => ⟨neg _ h0, neg _ h0, neg _ h0, neg _ h0⟩⟩

/-- **C03.** Every setter called with a non-negative key succeeds, at every point of every history; with a negative key
it throws and changes nothing. -/
theorem C03_setters_succeed {er : EndRead} {log : Log Val D} {s : GM Val D} (h : Reaches er log s)
    (k : Int) (hk : k < 2 ^ 56) (v w : Val) (op : Op Val D)
    (hop : op = .setPose k v ∨ op = .setVelocity k v ∨ op = .setImuBias k v ∨ op = .setBarometerBias k v ∨
      op = .setNavstate k v w) :
    (0 ≤ k → ∃ s', step er op s = some (.done, s')) ∧ (k < 0 → step er op s = some (.threw, s)) := by
  have hv := reaches_vinv h
  constructor
  · intro h0
    rcases hop with rfl | rfl | rfl | rfl | rfl
    · exact ⟨_, by simp only [step, setPose]; rw [set_ok hv (keyOf_eq h0 hk)]; rfl⟩
    · exact ⟨_, by simp only [step, setVelocity]; rw [set_ok hv (keyOf_eq h0 hk)]; rfl⟩
    · exact ⟨_, by simp only [step, setImuBias]; rw [set_ok hv (keyOf_eq h0 hk)]; rfl⟩
    · exact ⟨_, by simp only [step, setBarometerBias]; rw [set_ok hv (keyOf_eq h0 hk)]; rfl⟩
    · simp only [step, setNavstate]
      rw [bind_run, set_ok hv (keyOf_eq h0 hk)]
      dsimp only
      rw [set_ok (vinv_setState hv (keyOf_eq (c := .X) h0 hk) _ _) (keyOf_eq h0 hk)]
      exact ⟨_, rfl⟩
  · intro h0
    have ht : ∀ c, sym c k = .throws := fun c => sym_throws_iff.2 (by omega)
    rcases hop with rfl | rfl | rfl | rfl | rfl
    · simp only [step, setPose]; rw [set_throws s (ht _)]; rfl
    · simp only [step, setVelocity]; rw [set_throws s (ht _)]; rfl
    · simp only [step, setImuBias]; rw [set_throws s (ht _)]; rfl
    · simp only [step, setBarometerBias]; rw [set_throws s (ht _)]; rfl
    · simp only [step, setNavstate]; rw [bind_run, set_throws s (ht _)]; rfl

/-- **C04.** Whatever the history, every value handed over by an extraction is the value the getters report for that
variable at that moment (`value(key)`/`values()`), and so is every value still waiting. -/
theorem C04_extracted_values_current {er : EndRead} {log : Log Val D} {s s' : GM Val D}
    (h : Reaches er log s) (m : Int) (vs : OMap Key Val)
    (he : step er (.extractValues m) s = some (.values vs, s')) :
    (∀ raw v, vs.find raw = some v → s.values.find raw = some v) ∧
    (∀ raw v, s.newValues.find raw = some v → s.values.find raw = some v) := by
  have hv := reaches_vinv h
  have hl := reaches_linv h
  refine ⟨?_, hv.coherent⟩
  have he' : respOf .values (extractNewValues er m s) = some (.values vs, s') := he
  obtain ⟨e1, ⟨a, ha, hr⟩ | ⟨_, hr⟩⟩ := respOf_some he'
  · injection hr with hr
    subst hr
    obtain ⟨_, _, x3, x4, _⟩ := extractNewValues_ok hv hl.newIds (Prod.ext ha rfl : extractNewValues er m s = (.ok vs, _))
    intro raw v hrv
    apply hv.coherent
    by_cases hd : Due m s.newLandmarkIds raw
    · rw [← x3 raw hd]; exact hrv
    · rw [x4 raw hd] at hrv; simp at hrv
  · simp at hr

/-- **C13.** `update_from_values(v)` throws iff `v` names a variable that was never set. -/
theorem C13_throws_iff {er : EndRead} {log : Log Val D} {s : GM Val D} (h : Reaches er log s) (vs : OMap Key Val)
    (hvs : vs.Sorted) :
    ((∃ e ∈ vs, s.values.find e.1 = none) ↔ (updateFromValues vs s).1 = .throws) ∧
    (updateFromValues vs s).1 ≠ .ub := by
  obtain ⟨_, _, u3, u4⟩ := updateFromValues_spec vs hvs s (reaches_vinv h)
  by_cases hall : ∀ e ∈ vs, s.values.contains e.1 = true
  · have h3 := (u3 hall).1
    refine ⟨⟨?_, fun ht => by rw [h3] at ht; simp at ht⟩, by rw [h3]; simp⟩
    rintro ⟨e, he, hn⟩
    have := hall e he
    simp [OMap.contains, hn] at this
  · simp only [not_forall] at hall
    obtain ⟨e, he, hn⟩ := hall
    have hn' : s.values.contains e.1 = false := by simpa using hn
    have h4 := (u4 ⟨e, he, hn'⟩).1
    refine ⟨⟨fun _ => h4, fun _ => ⟨e, he, ?_⟩⟩, by rw [h4]; simp⟩
    unfold OMap.contains at hn'
    cases hf : s.values.find e.1 with
    | none => rfl
    | some v => simp [hf] at hn'

/-- **C13.** It never adds or removes a variable; when it succeeds it overwrites exactly the variables in `v` with the
values in `v` and leaves the rest; when it throws, every variable still has its old value or the one in `v`; nothing but
values changes. -/
theorem C13_effect {er : EndRead} {log : Log Val D} {s : GM Val D} (h : Reaches er log s) (vs : OMap Key Val)
    (hvs : vs.Sorted) :
    let r := updateFromValues vs s
    (∀ raw, (r.2.values.find raw).isSome = (s.values.find raw).isSome) ∧
    (r.1 = .ok () → ∀ raw, r.2.values.find raw = (vs.find raw).or (s.values.find raw)) ∧
    (r.1 = .throws → ∀ raw, r.2.values.find raw = s.values.find raw ∨ r.2.values.find raw = vs.find raw) ∧
    (∃ v n, r.2 = { s with values := v, newValues := n }) := by
  intro r
  obtain ⟨u1, _, u3, u4⟩ := updateFromValues_spec vs hvs s (reaches_vinv h)
  refine ⟨u1, ?_, ?_, ?_⟩
  · intro hok raw
    have hall : ∀ e ∈ vs, s.values.contains e.1 = true := by
      intro e he
      by_contra hne
      have := (u4 ⟨e, he, by simpa using hne⟩).1
      rw [this] at hok; simp at hok
    rw [(u3 hall).2]
    cases vs.find raw <;> rfl
  · intro ht
    have hex : ∃ e ∈ vs, s.values.contains e.1 = false := by
      by_contra hne
      have hall : ∀ e ∈ vs, s.values.contains e.1 = true := by
        intro e he
        by_contra hc
        exact hne ⟨e, he, by simpa using hc⟩
      rw [(u3 hall).1] at ht; simp at ht
    exact (u4 hex).2
  · exact keeps_updateFromValues' (P := fun t : GM Val D => ∃ v n, t = { s with values := v, newValues := n })
      (fun raw v t ht => by
        obtain ⟨a, b, rfl⟩ := ht
        rw [update_run]
        split
        · exact ⟨_, _, rfl⟩
        · exact ⟨_, _, rfl⟩) vs s ⟨s.values, s.newValues, rfl⟩

/-! ## The hypotheses are met -/

/-- A history with overwriting, a refused call and a feedback. -/
def demoValues : List (Op Nat Nat) :=
  [.setPose 0 7, .setVelocity 0 8, .setPose (-1) 1, .setNavstate 1 9 10, .setPose 0 11, .extractValues 0,
   .updateFromValues [(keyOf .V 0, 20), (keyOf .X 1, 21)], .setImuBias 1 5]

/-- Observations at the end of the history. -/
def demoValuesResult : List (Outcome Nat) :=
  match run .nodeCount demoValues ([], {}) with
  | some (_, s) => [pose s 0, velocity s 0, pose s 1, velocity s 1, imuBias s 1, imuBias s 0, pose s (-1)]
  | none => []

example : demoValuesResult = [.ok 11, .ok 20, .ok 21, .ok 10, .ok 5, .throws, .throws] := by decide +kernel

/-- Executable form of `FeedbackOk`. -/
def feedbackOkB (log : Log Val D) : Bool :=
  log.all fun e => match e with
    | (.updateFromValues vs, .done) => decide (vs.Pairwise (fun a b => a.1 < b.1))
    | (.updateFromValues _, _) => false
    | _ => true

theorem feedbackOk_of_b {log : Log Val D} (h : feedbackOkB log = true) : FeedbackOk log := by
  intro vs r hm
  have := List.all_eq_true.1 h _ hm
  cases r <;> simp at this
  exact ⟨this, rfl⟩

example : ∃ log s, Reaches (Val := Nat) (D := Nat) .nodeCount log s ∧ FeedbackOk log ∧
    (log.any fun e => match e with | (.updateFromValues _, .done) => true | _ => false) = true ∧
    specState .X 1 log.reverse = some 21 := by
  exact ⟨_, _, reaches_get (ops := demoValues) (by decide +kernel), feedbackOk_of_b (by decide +kernel), by decide +kernel, by decide +kernel⟩

end Graph

end Serpent
