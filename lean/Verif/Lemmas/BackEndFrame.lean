import Verif.Basic.Hoare
import Verif.Spec.BackEnd
import Verif.Lemmas.GraphFactors

/-!
# Which parts of the back end each function touches
-/

namespace Serpent

namespace BackEnd

open Graph M

variable {Val D O C I : Type} {P : BE Val D O → Prop}

/-- `P` does not depend on the graph manager. -/
def IndepIsam (P : BE Val D O → Prop) : Prop := ∀ s i, P s → P { s with isam := i }

/-- `P` does not depend on what was published. -/
def IndepPub (P : BE Val D O → Prop) : Prop := ∀ s p, P s → P { s with published := p }

/-- `P` does not depend on the record of calls. -/
def IndepCalls (P : BE Val D O → Prop) : Prop := ∀ s c, P s → P { s with calls := c }

theorem keeps_onIsam {α : Type} (h : IndepIsam P) (m : M (Isam Val D O) α) : Keeps P (onIsam m) := fun s hs => h s _ hs

theorem keeps_onG {α : Type} (h : IndepIsam P) (m : M (GM Val D) α) : Keeps P (onG m) := keeps_onIsam h _

theorem keeps_read {α : Type} (f : GM Val D → Outcome α) : Keeps P (read f) := fun _ hs => hs

theorem keeps_emit (h : IndepPub P) (p : Pub Val) : Keeps P (emit p) := fun s hs => h s _ hs

theorem keeps_branch {α : Type} {c : Prop} [Decidable c] {a b : M (BE Val D O) α} (ha : Keeps P a) (hb : Keeps P b) :
    Keeps P (branch c a b) := Keeps.ite ha hb

theorem keeps_marginalOf (api : Api Val D O C I) (c : Fam) (k : Int) : Keeps P (marginalOf api c k) := by
  unfold marginalOf
  exact Keeps.bind (Keeps.lift _) fun _ => Keeps.bind Keeps.get fun _ => Keeps.lift _

theorem keeps_publish (h : IndepPub P) (api : Api Val D O C I) (cfg : Cfg) (k : Int) : Keeps P (publish api cfg k) := by
  unfold publish
  refine Keeps.bind (keeps_read _) fun t => ?_
  refine Keeps.bind (keeps_read _) fun p => ?_
  refine Keeps.bind (keeps_branch (Keeps.pure _) (keeps_marginalOf _ _ _)) fun _ => ?_
  refine Keeps.bind (keeps_read _) fun v => ?_
  refine Keeps.bind (keeps_branch (keeps_marginalOf _ _ _) (Keeps.pure _)) fun _ => ?_
  refine Keeps.bind (keeps_emit h _) fun _ => ?_
  refine Keeps.bind (keeps_read _) fun b => ?_
  refine Keeps.bind (keeps_emit h _) fun _ => ?_
  refine Keeps.bind (keeps_read _) fun p => ?_
  refine Keeps.bind Keeps.get fun s => ?_
  exact Keeps.bind (keeps_emit h _) fun _ => keeps_emit h _

theorem keeps_optimiseB (h : IndepIsam P) (hc : IndepCalls P) (er : EndRead) (api : Api Val D O C I) (k : Int) :
    Keeps P (optimiseB er api k) := by
  unfold optimiseB
  refine Keeps.bind (Keeps.modify fun s hs => hc s _ hs) fun _ => ?_
  refine Keeps.bind (keeps_onIsam h _) fun _ => ?_
  exact Keeps.bind (keeps_read _) fun _ => Keeps.pure _

theorem keeps_optimiseAndPublish (h : IndepIsam P) (hp : IndepPub P) (hc : IndepCalls P) (er : EndRead)
    (api : Api Val D O C I) (cfg : Cfg) (k : Int) : Keeps P (optimiseAndPublish er api cfg k) :=
  Keeps.bind (keeps_optimiseB h hc er api k) fun _ => keeps_publish hp api cfg k

theorem keeps_addRegistrationFactor (h : IndepIsam P) (api : Api Val D O C I) (msg : RegMsg D C) :
    Keeps P (addRegistrationFactor api msg) := by
  unfold addRegistrationFactor
  refine Keeps.bind (keeps_onG h _) fun _ => ?_
  refine Keeps.bind (keeps_read _) fun k => ?_
  refine Keeps.bind (keeps_read _) fun t => ?_
  refine Keeps.ite Keeps.throw (Keeps.ite Keeps.throw (Keeps.ite Keeps.throw ?_))
  refine Keeps.bind (keeps_read _) fun k1 => ?_
  refine Keeps.bind (keeps_read _) fun p => ?_
  exact Keeps.bind (keeps_onG h _) fun _ => keeps_onG h _

theorem keeps_updateVelocity (h : IndepIsam P) (api : Api Val D O C I) (name : String) :
    Keeps P (updateVelocity api name) := by
  unfold updateVelocity
  refine Keeps.bind (keeps_read _) fun k1 => ?_
  refine Keeps.bind (keeps_read _) fun p1 => ?_
  refine Keeps.bind (keeps_read _) fun k => ?_
  refine Keeps.bind (keeps_read _) fun p => ?_
  exact Keeps.bind (keeps_read _) fun dt => keeps_onG h _

theorem keeps_registrationBody (h : IndepIsam P) (hp : IndepPub P) (hc : IndepCalls P) (er : EndRead)
    (api : Api Val D O C I) (cfg : Cfg) (msg : RegMsg D C) : Keeps P (registrationBody er api cfg msg) := by
  unfold registrationBody
  refine Keeps.bind (keeps_addRegistrationFactor h _ _) fun _ => ?_
  refine Keeps.bind (keeps_read _) fun k => ?_
  refine Keeps.bind (keeps_read _) fun m => ?_
  refine Keeps.ite ?_ (Keeps.pure _)
  refine Keeps.bind (keeps_optimiseB h hc _ _ _) fun _ => ?_
  refine Keeps.bind (keeps_branch (Keeps.pure _) (keeps_updateVelocity h _ _)) fun _ => ?_
  exact keeps_publish hp _ _ _

theorem keeps_addStereoFactors (h : IndepIsam P) (api : Api Val D O C I) (msg : StereoMsg) :
    Keeps P (addStereoFactors api msg) := by
  unfold addStereoFactors
  refine Keeps.bind (keeps_onG h _) fun _ => ?_
  refine Keeps.bind (keeps_read _) fun k => ?_
  refine Keeps.bind (keeps_read _) fun t => ?_
  refine Keeps.ite Keeps.throw ?_
  refine Keeps.bind Keeps.get fun s => ?_
  refine Keeps.bind (keeps_branch (keeps_branch Keeps.throw (keeps_onG h _)) (Keeps.pure _)) fun _ => ?_
  exact Keeps.bind (Keeps.lift _) fun fs => keeps_onG h _

theorem keeps_stereoWait : Keeps P (stereoWait (Val := Val) (D := D) (O := O)) := by
  unfold stereoWait
  exact Keeps.bind (keeps_read _) fun k => Keeps.bind (keeps_read _) fun hp => Keeps.pure _

theorem keeps_stereoIter (h : IndepIsam P) (hp : IndepPub P) (hc : IndepCalls P) (er : EndRead)
    (api : Api Val D O C I) (cfg : Cfg) (msg : StereoMsg) : Keeps P (stereoIter er api cfg msg) := by
  unfold stereoIter
  refine Keeps.bind (keeps_read _) fun k1 => ?_
  refine Keeps.bind (keeps_read _) fun t => ?_
  refine Keeps.ite ?_ (Keeps.pure _)
  refine Keeps.bind (keeps_branch (keeps_addStereoFactors h _ _) (keeps_onG h _)) fun _ => ?_
  refine Keeps.bind (keeps_read _) fun m => ?_
  refine Keeps.bind (keeps_read _) fun k => ?_
  refine Keeps.bind (keeps_branch ?_ (Keeps.pure _)) fun _ => Keeps.pure _
  refine Keeps.bind (keeps_optimiseAndPublish h hp hc _ _ _ _) fun _ => ?_
  exact keeps_branch (Keeps.pure _) (keeps_updateVelocity h _ _)

theorem keeps_baroAdvance (h : IndepIsam P) (stamp : Int) (n : Nat) :
    Keeps P (baroAdvance (Val := Val) (D := D) (O := O) stamp n) := by
  induction n with
  | zero => exact Keeps.pure _
  | succ n ih =>
    unfold baroAdvance
    refine Keeps.bind (keeps_read _) fun k => ?_
    refine Keeps.bind (keeps_read _) fun hp => ?_
    refine Keeps.ite ?_ (Keeps.pure _)
    refine Keeps.bind (keeps_read _) fun t => ?_
    exact Keeps.ite (Keeps.bind (keeps_onG h _) fun _ => ih) (Keeps.pure _)

theorem keeps_baroWait (h : IndepIsam P) (stamp : Int) :
    Keeps P (baroWait (Val := Val) (D := D) (O := O) stamp) := by
  unfold baroWait
  refine Keeps.bind Keeps.get fun s => ?_
  refine Keeps.bind (keeps_baroAdvance h _ _) fun _ => ?_
  refine Keeps.bind (keeps_read _) fun k => ?_
  refine Keeps.bind (keeps_read _) fun hp => ?_
  exact Keeps.ite (Keeps.bind (keeps_read _) fun t => Keeps.pure _) (Keeps.pure _)

theorem keeps_baroBiasLoop (h : IndepIsam P) (api : Api Val D O C I) (n : Nat) (k : Int) :
    Keeps P (baroBiasLoop api n k) := by
  induction n generalizing k with
  | zero => exact Keeps.pure _
  | succ n ih =>
    unfold baroBiasLoop
    refine Keeps.bind (keeps_onG h _) fun _ => ?_
    refine Keeps.bind (keeps_read _) fun b => ?_
    exact Keeps.bind (keeps_onG h _) fun _ => ih _

theorem keeps_baroBody (h : IndepIsam P) (api : Api Val D O C I) (cfg : Cfg) (next : Int) (msg : BaroMsg) :
    Keeps P (baroBody api cfg next msg) := by
  unfold baroBody
  refine Keeps.bind (keeps_read _) fun k => ?_
  refine Keeps.bind (keeps_read _) fun t => ?_
  refine Keeps.ite Keeps.throw (Keeps.ite Keeps.throw ?_)
  refine Keeps.bind (keeps_onG h _) fun _ => ?_
  refine Keeps.bind (keeps_branch ?_ (Keeps.pure _)) fun _ => ?_
  · exact Keeps.bind (keeps_onG h _) fun _ => keeps_branch Keeps.throw (keeps_onG h _)
  · exact Keeps.bind (keeps_baroBiasLoop h _ _ _) fun _ => keeps_onG h _

theorem keeps_imuWait : Keeps P (imuWait (Val := Val) (D := D) (O := O)) := by
  unfold imuWait
  exact Keeps.bind Keeps.get fun s => Keeps.bind (keeps_read _) fun k => Keeps.pure _

theorem keeps_imuWarn : Keeps P (imuWarn (Val := Val) (D := D) (O := O)) := by
  unfold imuWarn
  refine Keeps.bind Keeps.get fun s => Keeps.bind (keeps_read _) fun k => Keeps.ite ?_ (Keeps.pure _)
  exact Keeps.bind (keeps_read _) fun _ => Keeps.bind (keeps_read _) fun _ => Keeps.pure _

theorem keeps_imuBody (h : IndepIsam P) (hp : IndepPub P) (hc : IndepCalls P) (er : EndRead)
    (api : Api Val D O C I) (cfg : Cfg) (msg : ImuMsg I) : Keeps P (imuBody er api cfg msg) := by
  unfold imuBody
  refine Keeps.bind (keeps_read _) fun k0 => ?_
  refine Keeps.bind (keeps_read _) fun b0 => ?_
  refine Keeps.bind (Keeps.lift _) fun pre => ?_
  refine Keeps.bind (keeps_onG h _) fun _ => ?_
  refine Keeps.bind (keeps_read _) fun k1 => ?_
  refine Keeps.bind (keeps_read _) fun b1 => ?_
  refine Keeps.bind (keeps_read _) fun k => ?_
  refine Keeps.bind (keeps_onG h _) fun _ => ?_
  refine Keeps.bind (keeps_read _) fun nav => ?_
  refine Keeps.bind (keeps_read _) fun b2 => ?_
  refine Keeps.bind (keeps_onG h _) fun _ => ?_
  refine Keeps.bind (keeps_onG h _) fun _ => ?_
  refine Keeps.bind (keeps_read _) fun p => Keeps.ite Keeps.throw ?_
  refine Keeps.bind (keeps_read _) fun v => Keeps.ite Keeps.throw ?_
  refine Keeps.bind (keeps_read _) fun p1 => ?_
  refine Keeps.bind (keeps_read _) fun t => ?_
  refine Keeps.bind (keeps_emit hp _) fun _ => Keeps.ite ?_ (Keeps.pure _)
  refine Keeps.bind (keeps_onG h _) fun _ => ?_
  refine Keeps.bind (keeps_read _) fun m => ?_
  exact Keeps.ite (keeps_optimiseAndPublish h hp hc _ _ _ _) (Keeps.pure _)

/-- Whether the running callback holds the mutex does not depend on the rest. -/
theorem locked_isam (b : Bool) : IndepIsam (fun s : BE Val D O => s.locked = b) := fun _ _ h => h
theorem locked_pub (b : Bool) : IndepPub (fun s : BE Val D O => s.locked = b) := fun _ _ h => h
theorem locked_calls (b : Bool) : IndepCalls (fun s : BE Val D O => s.locked = b) := fun _ _ h => h

/-- `protected_sleep` returns with the mutex locked, whatever happens. -/
theorem sleep_locked {cond : M (BE Val D O) Bool} (hc : Keeps (fun s : BE Val D O => s.locked = true) cond)
    (script : List (Env Val D O)) : Keeps (fun s : BE Val D O => s.locked = true) (protectedSleep cond script) := by
  induction script with
  | nil => exact Keeps.pure _
  | cons e rest ih =>
    unfold protectedSleep
    refine Keeps.bind hc fun c => Keeps.ite ?_ (Keeps.pure _)
    intro s _
    rw [bind_run, unlock, modify_run]
    simp only [modify_bind]
    rw [bind_run, lock, modify_run]
    exact ih _ rfl

end BackEnd

end Serpent
