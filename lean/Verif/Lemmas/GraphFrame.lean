import Verif.Basic.Keeps
import Verif.Model.GraphHistory

/-!
# Which members each `GraphManager` method touches
-/

namespace Serpent

namespace Graph

open M

variable {Val D : Type} {P : GM Val D → Prop}

/-- `P` does not depend on the three members that setters write. -/
def IndepVals (P : GM Val D → Prop) : Prop :=
  ∀ (s : GM Val D) v n u, P s → P { s with values := v, newValues := n, unmarg := u }

/-- `P` does not depend on the members holding factors. -/
def IndepFactors (P : GM Val D → Prop) : Prop :=
  ∀ (s : GM Val D) f n, P s → P { s with factors := f, newFactors := n }

/-- `P` does not depend on the stereo bookkeeping. -/
def IndepStereo (P : GM Val D → Prop) : Prop :=
  ∀ (s : GM Val D) f l n, P s → P { s with features := f, landmarkIds := l, newLandmarkIds := n }

theorem keeps_update (h : IndepVals P) (raw : Key) (v : Val) : Keeps P (update (D := D) raw v) := by
  intro s hs
  unfold update
  dsimp only
  split
  · split
    · exact h s _ _ s.unmarg hs
    · exact h s _ s.newValues s.unmarg hs
  · exact hs

theorem keeps_add (h : IndepVals P) (c : Fam) (k : Int) (v : Val) : Keeps P (add (D := D) c k v) := by
  unfold add
  refine Keeps.bind (Keeps.lift _) fun raw => ?_
  refine Keeps.bind Keeps.get fun s0 => ?_
  refine Keeps.ite Keeps.throw ?_
  refine Keeps.bind (Keeps.modify fun s hs => h s _ s.newValues s.unmarg hs) fun _ => ?_
  refine Keeps.bind Keeps.get fun s1 => ?_
  refine Keeps.ite Keeps.throw ?_
  refine Keeps.bind (Keeps.modify fun s hs => h s s.values _ s.unmarg hs) fun _ => ?_
  exact Keeps.modify fun s hs => h s s.values s.newValues _ hs

theorem keeps_set (h : IndepVals P) (c : Fam) (k : Int) (v : Val) : Keeps P (set (D := D) c k v) := by
  unfold set
  refine Keeps.bind (Keeps.lift _) fun raw => ?_
  refine Keeps.bind Keeps.get fun s0 => ?_
  exact Keeps.ite (keeps_update h _ _) (keeps_add h _ _ _)

theorem keeps_updateFromValues (h : IndepVals P) (vs : List (Key × Val)) :
    Keeps P (updateFromValues (D := D) vs) := by
  induction vs with
  | nil => exact Keeps.pure _
  | cons e vs ih =>
    obtain ⟨k, v⟩ := e
    unfold updateFromValues
    exact Keeps.bind (keeps_update h _ _) fun _ => ih

theorem keeps_addFactor (h : IndepFactors P) (k : Int) (f : Factor D) : Keeps P (addFactor (Val := Val) k f) :=
  Keeps.modify fun s hs => h s _ _ hs

theorem keeps_createFactor (h : IndepFactors P) (kind : PlainKind) (k : Int) (d : D) :
    Keeps P (createFactor (Val := Val) kind k d) := by
  unfold createFactor
  exact Keeps.bind (Keeps.lift _) fun _ => keeps_addFactor h _ _

theorem keeps_pushStereo (h : IndepFactors P) (k i id : Int) (d : D) :
    Keeps P (pushStereo (Val := Val) k i id d) := by
  unfold pushStereo
  exact Keeps.bind (Keeps.lift _) fun _ => Keeps.bind (Keeps.lift _) fun _ => keeps_addFactor h _ _

theorem keeps_stereoFirst (hf : IndepFactors P) (hs : IndepStereo P) (k id : Int) (d : D) :
    Keeps P (stereoFirst (Val := Val) k id d) := by
  unfold stereoFirst
  refine Keeps.bind (keeps_pushStereo hf _ _ _ _) fun _ => ?_
  refine Keeps.bind (Keeps.modify fun s h => hs s s.features _ s.newLandmarkIds h) fun _ => ?_
  exact Keeps.modify fun s h => hs s s.features s.landmarkIds _ h

theorem keeps_stereoPrev (hf : IndepFactors P) (hs : IndepStereo P) (k : Int) (pp : Option (OMap Int D)) (id : Int)
    (d : D) : Keeps P (stereoPrev (Val := Val) k pp id d) := by
  unfold stereoPrev
  split
  · exact keeps_stereoFirst hf hs _ _ _
  · exact Keeps.ite (Keeps.pure _) (keeps_stereoFirst hf hs _ _ _)

theorem keeps_stereoCurrent (hv : ∀ id v, Keeps P (set (D := D) .S id v)) (hf : IndepFactors P) (k : Int) (p : Val) (id : Int) (d : D) :
    Keeps P (stereoCurrent (Val := Val) k p id d) := by
  unfold stereoCurrent
  refine Keeps.bind Keeps.get fun s0 => ?_
  split
  · exact Keeps.ub
  · exact Keeps.bind (hv _ _) fun _ => keeps_pushStereo hf _ _ _ _

theorem keeps_stereoFeature (hv : ∀ id v, Keeps P (set (D := D) .S id v)) (hf : IndepFactors P) (hs : IndepStereo P) (k : Int) (p : Val)
    (prev : OMap Int D) (pp : Option (OMap Int D)) (id : Int) (obs : D) :
    Keeps P (stereoFeature (Val := Val) k p prev pp id obs) := by
  unfold stereoFeature
  split
  · exact Keeps.pure _
  · exact Keeps.bind (keeps_stereoPrev hf hs _ _ _ _) fun _ => keeps_stereoCurrent hv hf _ _ _ _

theorem keeps_stereoLoop (hv : ∀ id v, Keeps P (set (D := D) .S id v)) (hf : IndepFactors P) (hs : IndepStereo P) (k : Int) (p : Val)
    (prev : OMap Int D) (pp : Option (OMap Int D)) (l : List (Int × D)) :
    Keeps P (stereoLoop (Val := Val) k p prev pp l) := by
  induction l with
  | nil => exact Keeps.pure _
  | cons e l ih =>
    obtain ⟨id, obs⟩ := e
    unfold stereoLoop
    exact Keeps.bind (keeps_stereoFeature hv hf hs _ _ _ _ _ _) fun _ => ih

theorem keeps_stereoCameraPose (k : Int) : Keeps P (stereoCameraPose (Val := Val) (D := D) k) := by
  unfold stereoCameraPose
  refine Keeps.bind Keeps.get fun s0 => Keeps.bind (Keeps.lift _) fun _ => ?_
  exact Keeps.ite (Keeps.pure _) Keeps.throw

theorem keeps_createStereo (hv : ∀ id v, Keeps P (set (D := D) .S id v)) (hf : IndepFactors P) (hs : IndepStereo P) (k : Int)
    (fs : OMap Int D) : Keeps P (createStereo (Val := Val) k fs) := by
  unfold createStereo
  refine Keeps.bind Keeps.get fun s0 => ?_
  refine Keeps.ite Keeps.throw ?_
  refine Keeps.bind (Keeps.modify fun s h => hs s _ s.landmarkIds s.newLandmarkIds h) fun _ => ?_
  refine Keeps.bind (Keeps.modify fun s h => hf s _ s.newFactors h) fun _ => ?_
  refine Keeps.bind (Keeps.modify fun s h => hf s s.factors _ h) fun _ => ?_
  refine Keeps.bind Keeps.get fun s1 => ?_
  split
  · refine Keeps.bind (Keeps.lift _) fun _ => ?_
    refine Keeps.ite Keeps.throw ?_
    refine Keeps.bind (keeps_stereoCameraPose _) fun _ => ?_
    refine Keeps.bind (Keeps.modify fun s h => hs s s.features _ s.newLandmarkIds h) fun _ => ?_
    refine Keeps.bind (Keeps.modify fun s h => hs s s.features s.landmarkIds _ h) fun _ => ?_
    exact keeps_stereoLoop hv hf hs _ _ _ _ _
  · exact Keeps.pure _

/-- A predicate on the result of a call. -/
theorem respOf_some {α : Type} {f : α → Resp Val D} {r : Outcome α × GM Val D} {x : Resp Val D} {s' : GM Val D}
    (h : respOf f r = some (x, s')) : s' = r.2 ∧ ((∃ a, r.1 = .ok a ∧ x = f a) ∨ (r.1 = .throws ∧ x = .threw)) := by
  obtain ⟨o, s⟩ := r
  cases o with
  | ok a => simp [respOf] at h; exact ⟨h.2.symm, Or.inl ⟨a, rfl, h.1.symm⟩⟩
  | throws => simp [respOf] at h; exact ⟨h.2.symm, Or.inr ⟨rfl, h.1.symm⟩⟩
  | ub => simp [respOf] at h

theorem respOf_keeps {α : Type} {f : α → Resp Val D} {m : M (GM Val D) α} {s : GM Val D} {x : Resp Val D}
    {s' : GM Val D} (hk : Keeps P m) (hs : P s) (h : respOf f (m s) = some (x, s')) : P s' := by
  rw [(respOf_some h).1]; exact hk s hs

/-- Calls other than those listed keep a predicate on the members they do not touch. -/
theorem extractNewValues_frame (er : EndRead) (m : Int) (s : GM Val D) :
    ∃ n l, (extractNewValues er m s).2 = { s with newValues := n, newLandmarkIds := l } := by
  unfold extractNewValues
  split
  · exact ⟨s.newValues, s.newLandmarkIds, rfl⟩
  · exact ⟨s.newValues, s.newLandmarkIds, rfl⟩
  · dsimp only
    split
    · exact ⟨_, _, rfl⟩
    · exact ⟨s.newValues, _, rfl⟩
    · exact ⟨s.newValues, _, rfl⟩

theorem keeps_extractNewValues (hv : IndepVals P) (hs : IndepStereo P) (er : EndRead) (m : Int) :
    Keeps P (extractNewValues (Val := Val) (D := D) er m) := by
  intro s h
  obtain ⟨n, l, e⟩ := extractNewValues_frame er m s
  rw [e]
  exact hs { s with newValues := n } s.features s.landmarkIds l (hv s s.values n s.unmarg h)

/-- State after each call, in terms of the method called. -/
def stateAfter (er : EndRead) (op : Op Val D) (s : GM Val D) : GM Val D :=
  match op with
  | .setNamedKey n k p => (setNamedKey n k p s).2
  | .increment n => (increment n s).2
  | .setPose k v => (set .X k v s).2
  | .setVelocity k v => (set .V k v s).2
  | .setImuBias k v => (set .B k v s).2
  | .setBarometerBias k v => (set .P k v s).2
  | .setNavstate k p v => (setNavstate k p v s).2
  | .setTimestamp k t => (setTimestamp k t s).2
  | .create kind k d => (createFactor kind k d s).2
  | .stereo k fs => (createStereo k fs s).2
  | .setExtrinsic => (setExtrinsic s).2
  | .setCalibration bp => (setCalibration bp s).2
  | .updateFromValues vs => (updateFromValues vs s).2
  | .extractFactors m => (extractNewFactors m s).2
  | .extractValues m => (extractNewValues er m s).2
  | .extractKeys m => (extractUnmarginalisedKeys m s).2

theorem step_state {er : EndRead} {op : Op Val D} {s s' : GM Val D} {r : Resp Val D}
    (h : step er op s = some (r, s')) : s' = stateAfter er op s := by
  cases op <;> simp only [step] at h <;> exact (respOf_some h).1

/-- A predicate on the named keys and timestamps only is kept by all calls but those that set them. -/
theorem step_keeps {er : EndRead} {op : Op Val D} {s s' : GM Val D} {r : Resp Val D}
    (h : step er op s = some (r, s')) (hP : P s)
    (hk : ∀ n k p, op = .setNamedKey n k p → P (setNamedKey n k p s).2)
    (hi : ∀ n, op = .increment n → P (increment n s).2)
    (ht : ∀ k t, op = .setTimestamp k t → P (setTimestamp k t s).2)
    (he : op = .setExtrinsic → P (setExtrinsic s).2)
    (hc : ∀ bp, op = .setCalibration bp → P (setCalibration bp s).2)
    (hv : IndepVals P) (hf : IndepFactors P) (hs : IndepStereo P) : P s' := by
  cases op with
  | setNamedKey n k p => rw [step_state h]; exact hk n k p rfl
  | increment n => rw [step_state h]; exact hi n rfl
  | setPose k v => rw [step_state h]; exact (keeps_set hv _ _ _) _ hP
  | setVelocity k v => rw [step_state h]; exact (keeps_set hv _ _ _) _ hP
  | setImuBias k v => rw [step_state h]; exact (keeps_set hv _ _ _) _ hP
  | setBarometerBias k v => rw [step_state h]; exact (keeps_set hv _ _ _) _ hP
  | setNavstate k p v =>
    rw [step_state h]
    exact Keeps.bind (m := set .X k p) (keeps_set hv _ _ _) (fun _ => keeps_set hv _ _ _) _ hP
  | setTimestamp k t => rw [step_state h]; exact ht k t rfl
  | create kind k d => rw [step_state h]; exact (keeps_createFactor hf _ _ _) _ hP
  | stereo k fs => rw [step_state h]; exact (keeps_createStereo (fun _ _ => keeps_set hv _ _ _) hf hs _ _) _ hP
  | setExtrinsic =>
    rw [step_state h]; exact he rfl
  | setCalibration bp =>
    rw [step_state h]; exact hc bp rfl
  | updateFromValues vs => rw [step_state h]; exact (keeps_updateFromValues hv _) _ hP
  | extractFactors m =>
    rw [step_state h]
    exact hf s s.factors _ hP
  | extractValues m => rw [step_state h]; exact (keeps_extractNewValues hv hs _ _) _ hP
  | extractKeys m =>
    rw [step_state h]
    exact hv s s.values s.newValues _ hP

end Graph

end Serpent
