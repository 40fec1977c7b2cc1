import Verif.Lemmas.BackEndHistory
import Verif.Spec.BackEndHistory

/-!
# A recorded run is a run

Every run of the node is a run of the node with a recording optimiser, without the record.
-/

namespace Serpent

namespace M

variable {σ σ' α α' β β' : Type} {φ : σ' → σ}

/-- `m` does on `φ s` what `m'` does on `s`, with results related by `R`. -/
def Sim (φ : σ' → σ) (R : α' → α → Prop) (m' : M σ' α') (m : M σ α) : Prop :=
  ∀ s, match m' s with
    | (.ok a', t) => ∃ a, m (φ s) = (.ok a, φ t) ∧ R a' a
    | (.throws, t) => m (φ s) = (.throws, φ t)
    | (.ub, t) => m (φ s) = (.ub, φ t)

theorem Sim.bind {R : α' → α → Prop} {S : β' → β → Prop} {m' : M σ' α'} {m : M σ α} {f' : α' → M σ' β'} {f : α → M σ β}
    (h : Sim φ R m' m) (hf : ∀ a' a, R a' a → Sim φ S (f' a') (f a)) : Sim φ S (m' >>= f') (m >>= f) := by
  intro s
  have h1 := h s
  rw [bind_run, bind_run]
  rcases hr : m' s with ⟨x, t⟩
  rw [hr] at h1
  cases x with
  | ok a' =>
    obtain ⟨a, e, hR⟩ := h1
    rw [e]
    exact hf a' a hR t
  | throws => rw [h1]
  | ub => rw [h1]

theorem Sim.next {S : β' → β → Prop} {m' : M σ' α} {m : M σ α} {f' : α → M σ' β'} {f : α → M σ β}
    (h : Sim φ Eq m' m) (hf : ∀ a, Sim φ S (f' a) (f a)) : Sim φ S (m' >>= f') (m >>= f) :=
  Sim.bind h fun a' a e => by subst e; exact hf a'

theorem Sim.pure (a : α) : Sim φ Eq (Pure.pure a : M σ' α) (Pure.pure a : M σ α) := fun _ => ⟨a, rfl, rfl⟩
theorem Sim.throw {R : α' → α → Prop} : Sim φ R (M.throw : M σ' α') (M.throw : M σ α) := fun _ => rfl
theorem Sim.get : Sim φ (fun s' s => s = φ s') (M.get : M σ' σ') (M.get : M σ σ) := fun s => ⟨φ s, rfl, rfl⟩
theorem Sim.modify {g' : σ' → σ'} {g : σ → σ} (h : ∀ s, g (φ s) = φ (g' s)) : Sim φ Eq (M.modify g') (M.modify g) := fun s =>
  ⟨(), by rw [modify_run, h], rfl⟩

theorem Sim.ite {R : α' → α → Prop} {c : Prop} [Decidable c] {m' n' : M σ' α'} {m n : M σ α} (h1 : Sim φ R m' m) (h2 : Sim φ R n' n) :
    Sim φ R (if c then m' else n') (if c then m else n) := by
  split
  · exact h1
  · exact h2

theorem Sim.lift (x : Outcome α) : Sim φ Eq (M.lift x : M σ' α) (M.lift x : M σ α) := by
  intro s
  simp only [lift_run]
  cases x with
  | ok a => exact ⟨a, rfl, rfl⟩
  | throws => rfl
  | ub => rfl

end M

namespace BackEnd

open Graph M

variable {Val D O C I : Type}

/-- Without the record of the optimiser. -/
def forgetI (s : Isam Val D (O × List (Event Val D))) : Isam Val D O :=
  ⟨s.gm, s.opt.1, s.optKey, s.marginalisation, s.margKey, s.window⟩

def forget (s : BE Val D (O × List (Event Val D))) : BE Val D O := ⟨forgetI s.isam, s.locked, s.published, s.calls⟩

def forgetS (s : Sys Val D (O × List (Event Val D))) : Sys Val D O := ⟨forget s.be, s.baro, s.started⟩

abbrev SimI {α : Type} (m' : M (Isam Val D (O × List (Event Val D))) α) (m : M (Isam Val D O) α) : Prop := Sim forgetI Eq m' m
abbrev SimB {α : Type} (m' : M (BE Val D (O × List (Event Val D))) α) (m : M (BE Val D O) α) : Prop := Sim forget Eq m' m

theorem sim_onGm {α : Type} (m : M (GM Val D) α) : SimI (O := O) (onGm m) (onGm m) := by
  intro s
  simp only [onGm, forgetI]
  rcases m s.gm with ⟨x, g⟩
  cases x with
  | ok a => exact ⟨a, rfl, rfl⟩
  | throws => rfl
  | ub => rfl

theorem sim_marginalise (opt : OptApi Val D O) (k : Int) : SimI (marginalise (recording opt) k) (marginalise opt k) := by
  unfold marginalise
  refine Sim.bind Sim.get fun s' s e => ?_
  subst e
  refine Sim.ite Sim.throw ?_
  refine Sim.next (sim_onGm _) fun ks => Sim.next (Sim.modify fun _ => rfl) fun _ => Sim.bind Sim.get fun s' s e => ?_
  subst e
  refine Sim.bind (R := fun o' o => o'.1 = o) ?_ fun o' o e => Sim.modify fun _ => by subst e; rfl
  intro t
  simp only [lift_run, recording, forgetI]
  cases opt.marginalizeLeaves s'.opt.1 ks with
  | ok o => exact ⟨o, rfl, rfl⟩
  | throws => rfl
  | ub => rfl

theorem sim_optimise (er : EndRead) (opt : OptApi Val D O) (k : Int) : SimI (optimise er (recording opt) k) (optimise er opt k) := by
  unfold optimise
  refine Sim.next (sim_onGm _) fun fs => Sim.next (sim_onGm _) fun vs => Sim.bind Sim.get fun s' s e => ?_
  subst e
  refine Sim.bind (R := fun o' o => o'.1 = o) ?_ fun o' o e => ?_
  · intro t
    simp only [lift_run, recording, forgetI]
    cases opt.update s'.opt.1 fs vs with
    | ok o => exact ⟨o, rfl, rfl⟩
    | throws => rfl
    | ub => rfl
  subst e
  refine Sim.next (Sim.modify fun _ => rfl) fun _ => Sim.next (Sim.modify fun _ => rfl) fun _ => ?_
  refine Sim.next (sim_onGm _) fun _ => Sim.bind Sim.get fun s' s e => ?_
  subst e
  exact Sim.ite (sim_marginalise opt _) (Sim.pure _)

theorem sim_onIsam {α : Type} {m' : M (Isam Val D (O × List (Event Val D))) α} {m : M (Isam Val D O) α} (h : SimI m' m) :
    SimB (onIsam m') (onIsam m) := by
  intro s
  have h1 := h s.isam
  have e : (forget s).isam = forgetI s.isam := rfl
  simp only [onIsam, e]
  rcases hr : m' s.isam with ⟨x, i⟩
  rw [hr] at h1
  cases x with
  | ok a =>
    obtain ⟨b, e1, e2⟩ := h1
    exact ⟨b, by rw [e1]; rfl, e2⟩
  | throws => simp only at h1 ⊢; rw [h1]; rfl
  | ub => simp only at h1 ⊢; rw [h1]; rfl

theorem sim_onG {α : Type} (m : M (GM Val D) α) : SimB (O := O) (onG m) (onG m) := sim_onIsam (sim_onGm m)

theorem sim_read {α : Type} (f : GM Val D → Outcome α) : SimB (O := O) (read f) (read f) := by
  intro s
  simp only [read, forget, forgetI]
  cases f s.isam.gm with
  | ok a => exact ⟨a, rfl, rfl⟩
  | throws => rfl
  | ub => rfl

theorem sim_emit (p : Pub Val) : SimB (D := D) (O := O) (emit p) (emit p) := Sim.modify fun _ => rfl

theorem sim_branch {α : Type} {c : Prop} [Decidable c] {a' b' : M (BE Val D (O × List (Event Val D))) α} {a b : M (BE Val D O) α}
    (h1 : SimB a' a) (h2 : SimB b' b) : SimB (branch c a' b') (branch c a b) := Sim.ite h1 h2

variable (er : EndRead) (api : Api Val D O C I) (cfg : Cfg)

theorem sim_optimiseB (k : Int) : SimB (optimiseB er (recorded api) k) (optimiseB er api k) := by
  unfold optimiseB
  exact Sim.next (Sim.modify fun _ => rfl) fun _ => Sim.next (sim_onIsam (sim_optimise er api.opt k)) fun _ =>
    Sim.next (sim_read _) fun _ => Sim.pure _

theorem sim_marginalOf (c : Fam) (k : Int) : SimB (marginalOf (recorded api) c k) (marginalOf api c k) := by
  unfold marginalOf
  refine Sim.next (Sim.lift _) fun raw => Sim.bind Sim.get fun s' s e => ?_
  subst e
  exact Sim.lift _

theorem sim_publish (k : Int) : SimB (publish (recorded api) cfg k) (publish api cfg k) := by
  unfold publish
  refine Sim.next (sim_read _) fun t => Sim.next (sim_read _) fun p => Sim.next (sim_branch (Sim.pure _) (sim_marginalOf api _ _)) fun _ => ?_
  refine Sim.next (sim_read _) fun v => Sim.next (sim_branch (sim_marginalOf api _ _) (Sim.pure _)) fun _ => ?_
  refine Sim.next (sim_emit _) fun _ => Sim.next (sim_read _) fun b => Sim.next (sim_emit _) fun _ => Sim.next (sim_read _) fun path => ?_
  refine Sim.bind Sim.get fun s' s e => ?_
  subst e
  exact Sim.next (sim_emit _) fun _ => sim_emit _

theorem sim_both (k : Int) : SimB (optimiseAndPublish er (recorded api) cfg k) (optimiseAndPublish er api cfg k) :=
  Sim.next (sim_optimiseB er api k) fun _ => sim_publish api cfg k

theorem sim_velocity (name : String) : SimB (updateVelocity (recorded api) name) (updateVelocity api name) := by
  unfold updateVelocity
  exact Sim.next (sim_read _) fun _ => Sim.next (sim_read _) fun _ => Sim.next (sim_read _) fun _ => Sim.next (sim_read _) fun _ =>
    Sim.next (sim_read _) fun _ => sim_onG _

theorem sim_construct : SimB (Val := Val) (D := D) (O := O) (construct cfg) (construct cfg) := by
  unfold construct
  refine Sim.next (sim_onG _) fun _ => Sim.next (sim_branch (sim_onG _) (Sim.pure _)) fun _ => ?_
  refine Sim.next (sim_branch (Sim.next (sim_onG _) fun _ => sim_onG _) (Sim.pure _)) fun _ => ?_
  refine Sim.next (sim_branch (Sim.next (sim_onG _) fun _ => sim_branch Sim.throw (Sim.pure _)) (Sim.pure _)) fun _ => ?_
  split
  · exact Sim.pure _
  · refine Sim.ite Sim.throw (sim_onIsam ?_)
    unfold setMarginalisation
    exact Sim.modify fun s => by simp only [forgetI]; split <;> rfl

theorem sim_registration (msg : RegMsg D C) : SimB (registrationBody er (recorded api) cfg msg) (registrationBody er api cfg msg) := by
  unfold registrationBody addRegistrationFactor
  refine Sim.next ?_ fun _ => ?_
  · refine Sim.next (sim_onG _) fun _ => Sim.next (sim_read _) fun k => Sim.next (sim_read _) fun t => ?_
    refine Sim.ite Sim.throw (Sim.ite Sim.throw (Sim.ite Sim.throw ?_))
    exact Sim.next (sim_read _) fun k1 => Sim.next (sim_read _) fun p => Sim.next (sim_onG _) fun _ => sim_onG _
  · refine Sim.next (sim_read _) fun k => Sim.next (sim_read _) fun m => Sim.ite ?_ (Sim.pure _)
    exact Sim.next (sim_optimiseB er api k) fun _ => Sim.next (sim_branch (Sim.pure _) (sim_velocity api _)) fun _ => sim_publish api cfg k

theorem sim_initial (msg : OdomMsg Val C) : SimB (initialBody er (recorded api) cfg msg) (initialBody er api cfg msg) := by
  unfold initialBody
  refine Sim.next (sim_onG _) fun _ => Sim.next (sim_onG _) fun _ => Sim.next (sim_onG _) fun _ => Sim.next (sim_onG _) fun _ => ?_
  refine Sim.ite Sim.throw (Sim.next (sim_read _) fun p => Sim.next (sim_onG _) fun _ => ?_)
  refine Sim.next (sim_branch ?_ (Sim.pure _)) fun _ => Sim.next (sim_emit _) fun _ => sim_both er api cfg 0
  refine Sim.ite Sim.throw (Sim.next (sim_read _) fun v => Sim.next (sim_onG _) fun _ => ?_)
  exact Sim.ite Sim.throw (Sim.ite Sim.throw (Sim.next (sim_read _) fun b => sim_onG _))

theorem sim_imu (msg : ImuMsg I) : SimB (imuBody er (recorded api) cfg msg) (imuBody er api cfg msg) := by
  unfold imuBody
  refine Sim.next (sim_read _) fun k0 => Sim.next (sim_read _) fun b0 => Sim.next (Sim.lift _) fun pre => ?_
  refine Sim.next (sim_onG _) fun _ => Sim.next (sim_read _) fun k1 => Sim.next (sim_read _) fun b1 => Sim.next (sim_read _) fun k => ?_
  refine Sim.next (sim_onG _) fun _ => Sim.next (sim_read _) fun nav => Sim.next (sim_read _) fun b2 => ?_
  refine Sim.next (sim_onG _) fun _ => Sim.next (sim_onG _) fun _ => Sim.next (sim_read _) fun p => Sim.ite Sim.throw ?_
  refine Sim.next (sim_read _) fun v => Sim.ite Sim.throw ?_
  refine Sim.next (sim_read _) fun p1 => Sim.next (sim_read _) fun t => Sim.next (sim_emit _) fun _ => Sim.ite ?_ (Sim.pure _)
  exact Sim.next (sim_onG _) fun _ => Sim.next (sim_read _) fun m => Sim.ite (sim_both er api cfg k) (Sim.pure _)

theorem sim_stereo (msg : StereoMsg) : SimB (stereoIter er (recorded api) cfg msg) (stereoIter er api cfg msg) := by
  unfold stereoIter addStereoFactors
  refine Sim.next (sim_read _) fun k1 => Sim.next (sim_read _) fun t => Sim.ite ?_ (Sim.pure _)
  refine Sim.next (sim_branch ?_ (sim_onG _)) fun _ => ?_
  · refine Sim.next (sim_onG _) fun _ => Sim.next (sim_read _) fun k => Sim.next (sim_read _) fun t => Sim.ite Sim.throw ?_
    refine Sim.bind Sim.get fun s' s e => ?_
    subst e
    refine Sim.next (sim_branch (sim_branch Sim.throw (sim_onG _)) (Sim.pure _)) fun _ => ?_
    exact Sim.next (Sim.lift _) fun fs => sim_onG _
  · refine Sim.next (sim_read _) fun m => Sim.next (sim_read _) fun k => Sim.next (sim_branch ?_ (Sim.pure _)) fun _ => Sim.pure _
    exact Sim.next (sim_both er api cfg k) fun _ => sim_branch (Sim.pure _) (sim_velocity api _)

theorem sim_baroAdvance (stamp : Int) (n : Nat) : SimB (Val := Val) (D := D) (O := O) (baroAdvance stamp n) (baroAdvance stamp n) := by
  induction n with
  | zero => exact Sim.pure _
  | succ n ih =>
    unfold baroAdvance
    refine Sim.next (sim_read _) fun k => Sim.next (sim_read _) fun hp => Sim.ite ?_ (Sim.pure _)
    exact Sim.next (sim_read _) fun t => Sim.ite (Sim.next (sim_onG _) fun _ => ih) (Sim.pure _)

theorem sim_baroWait (stamp : Int) : SimB (Val := Val) (D := D) (O := O) (baroWait stamp) (baroWait stamp) := by
  unfold baroWait
  refine Sim.bind Sim.get fun s' s e => ?_
  subst e
  refine Sim.next (sim_baroAdvance _ _) fun _ => Sim.next (sim_read _) fun k => Sim.next (sim_read _) fun hp => Sim.ite ?_ (Sim.pure _)
  exact Sim.next (sim_read _) fun t => Sim.pure _

theorem sim_baroLoop (n : Nat) (k : Int) : SimB (baroBiasLoop (recorded api) n k) (baroBiasLoop api n k) := by
  induction n generalizing k with
  | zero => exact Sim.pure _
  | succ n ih =>
    unfold baroBiasLoop
    exact Sim.next (sim_onG _) fun _ => Sim.next (sim_read _) fun b => Sim.next (sim_onG _) fun _ => ih _

theorem sim_baro (next : Int) (msg : BaroMsg) : SimB (baroBody (recorded api) cfg next msg) (baroBody api cfg next msg) := by
  unfold baroBody
  refine Sim.next (sim_read _) fun k => Sim.next (sim_read _) fun t => Sim.ite Sim.throw (Sim.ite Sim.throw ?_)
  refine Sim.next (sim_onG _) fun _ => Sim.next (sim_branch ?_ (Sim.pure _)) fun _ => ?_
  · exact Sim.next (sim_onG _) fun _ => sim_branch Sim.throw (sim_onG _)
  · exact Sim.next (sim_baroLoop api _ _) fun _ => sim_onG _

theorem sim_imuWarn : SimB (Val := Val) (D := D) (O := O) imuWarn imuWarn := by
  unfold imuWarn
  refine Sim.bind Sim.get fun s' s e => ?_
  subst e
  refine Sim.next (sim_read _) fun k => Sim.ite ?_ (Sim.pure _)
  exact Sim.next (sim_read _) fun _ => Sim.next (sim_read _) fun _ => Sim.pure _

theorem sim_imuWait : SimB (Val := Val) (D := D) (O := O) imuWait imuWait := by
  unfold imuWait
  refine Sim.bind Sim.get fun s' s e => ?_
  subst e
  exact Sim.next (sim_read _) fun k => Sim.pure _

theorem sim_stereoWait : SimB (Val := Val) (D := D) (O := O) stereoWait stereoWait := by
  unfold stereoWait
  exact Sim.next (sim_read _) fun k => Sim.next (sim_read _) fun hp => Sim.pure _

variable {er api cfg}

theorem sim_guarded {m' : M (BE Val D (O × List (Event Val D))) Unit} {m : M (BE Val D O) Unit} (h : SimB m' m) :
    SimB (guarded m') (guarded m) := by
  intro s
  have h1 := h { s with locked := true }
  have e : ({ forget s with locked := true } : BE Val D O) = forget { s with locked := true } := rfl
  unfold guarded
  rw [e]
  rcases hr : m' { s with locked := true } with ⟨x, b⟩
  rw [hr] at h1
  cases x with
  | ok a =>
    obtain ⟨c, e1, e2⟩ := h1
    exact ⟨c, by rw [e1]; rfl, e2⟩
  | throws => simp only at h1 ⊢; rw [h1]; rfl
  | ub => simp only at h1 ⊢; rw [h1]; rfl

/-- One section, with and without the record. -/
def Same (r' : Option (Outcome Unit × Sys Val D (O × List (Event Val D)))) (r : Option (Outcome Unit × Sys Val D O)) : Prop :=
  r = r'.map fun x => (x.1, forgetS x.2)

theorem same_sect {α : Type} {m' : M (BE Val D (O × List (Event Val D))) α} {m : M (BE Val D O) α} (h : SimB m' m)
    {f' : Sys Val D (O × List (Event Val D)) → Sys Val D (O × List (Event Val D))} {f : Sys Val D O → Sys Val D O}
    (hf : ∀ s, f (forgetS s) = forgetS (f' s)) (s : Sys Val D (O × List (Event Val D))) : Same (sect m' f' s) (sect m f (forgetS s)) := by
  have h1 := h s.be
  have e : (forgetS s).be = forget s.be := rfl
  unfold Same sect
  rw [e]
  rcases hr : m' s.be with ⟨x, b⟩
  rw [hr] at h1
  cases x with
  | ok a =>
    obtain ⟨c, e1, -⟩ := h1
    rw [e1]
    have := hf { s with be := b }
    simp only [Option.map_some]
    rw [← this]
    rfl
  | throws => simp only at h1; rw [h1]; rfl
  | ub => simp only at h1; rw [h1]; rfl

theorem same_sectAfter {α : Type} {w' : M (BE Val D (O × List (Event Val D))) Bool} {w : M (BE Val D O) Bool} (hw : SimB w' w)
    {m' : M (BE Val D (O × List (Event Val D))) α} {m : M (BE Val D O) α} (h : SimB m' m)
    {f' : Sys Val D (O × List (Event Val D)) → Sys Val D (O × List (Event Val D))} {f : Sys Val D O → Sys Val D O}
    (hf : ∀ s, f (forgetS s) = forgetS (f' s)) (s : Sys Val D (O × List (Event Val D))) :
    Same (sectAfter w' m' f' s) (sectAfter w m f (forgetS s)) := by
  have h1 := hw s.be
  have e : (forgetS s).be = forget s.be := rfl
  unfold sectAfter
  rw [e]
  rcases hr : w' s.be with ⟨x, b⟩
  rw [hr] at h1
  cases x with
  | ok a =>
    obtain ⟨c, e1, e2⟩ := h1
    subst e2
    rw [e1]
    cases a with
    | true => rfl
    | false => exact same_sect h hf { s with be := b }
  | throws => simp only at h1; rw [h1]; rfl
  | ub => simp only at h1; rw [h1]; rfl

theorem same_step (ev : Ev Val D C I) (s : Sys Val D (O × List (Event Val D))) :
    Same (nodeStep er (recorded api) cfg ev s) (nodeStep er api cfg ev (forgetS s)) := by
  cases ev with
  | initial msg =>
    simp only [nodeStep]
    have e : (forgetS s).started = s.started := rfl
    rw [e]
    split
    · rfl
    · exact same_sect (sim_guarded (sim_initial er api cfg msg)) (fun _ => rfl) s
  | imu msg =>
    simp only [nodeStep]
    split
    · rfl
    · exact same_sectAfter (Sim.next sim_imuWarn fun _ => sim_imuWait) (sim_imu er api cfg msg) (fun _ => rfl) s
  | reg msg =>
    simp only [nodeStep]
    split
    · exact same_sect (sim_guarded (sim_registration er api cfg msg)) (fun _ => rfl) s
    · rfl
  | stereo msg =>
    simp only [nodeStep]
    split
    · exact same_sectAfter sim_stereoWait (sim_stereo er api cfg msg) (fun _ => rfl) s
    · rfl
  | baroStart =>
    simp only [nodeStep]
    have e1 : (forgetS s).baro = s.baro := rfl
    have e2 : (forgetS s).be.isam.gm = s.be.isam.gm := rfl
    rw [e1, e2]
    split
    · cases s.baro with
      | some k => rfl
      | none => cases key s.be.isam.gm "barometer" 0 <;> rfl
    · rfl
  | baroPoll stamp =>
    simp only [nodeStep]
    have e1 : (forgetS s).baro = s.baro := rfl
    rw [e1]
    split
    · exact same_sect (sim_baroWait stamp) (fun _ => rfl) s
    · rfl
  | baroFinish msg =>
    simp only [nodeStep]
    have e1 : (forgetS s).baro = s.baro := rfl
    rw [e1]
    cases s.baro with
    | none => rfl
    | some next => exact same_sectAfter (sim_baroWait msg.stamp) (sim_baro api cfg next msg) (fun _ => rfl) s

/-- Every run of the node is a recorded run without the record. -/
theorem recorded_reach {o : O} {s : Sys Val D O} (h : NodeReach er api cfg o s) :
    ∃ s', NodeReach er (recorded api) cfg (o, []) s' ∧ forgetS s' = s := by
  induction h with
  | @init b hi =>
    have h1 := sim_construct (Val := Val) (D := D) (O := O) cfg { isam := { opt := (o, []) } }
    unfold initSys at hi
    have e : forget (Val := Val) (D := D) { isam := { opt := (o, []) } } = ({ isam := { opt := o } } : BE Val D O) := rfl
    rw [e, hi] at h1
    rcases hr : construct cfg ({ isam := { opt := (o, []) } } : BE Val D (O × List (Event Val D))) with ⟨x, b'⟩
    rw [hr] at h1
    cases x with
    | ok a =>
      obtain ⟨c, e1, -⟩ := h1
      cases e1
      exact ⟨{ be := b' }, .init hr, rfl⟩
    | throws => simp at h1
    | ub => simp at h1
  | @step s s1 ev hr hs ih =>
    obtain ⟨s', h1, rfl⟩ := ih
    have h2 := same_step (er := er) (api := api) (cfg := cfg) ev s'
    unfold Same at h2
    rw [hs] at h2
    obtain ⟨⟨r, t⟩, h3, h4⟩ := Option.map_eq_some_iff.1 h2.symm
    cases h4
    exact ⟨t, h1.step h3, rfl⟩

end BackEnd

end Serpent
