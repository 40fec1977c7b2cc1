import Verif.Lemmas.BackEndState

/-!
# What each callback of the back end does to the description of the graph
-/

namespace Serpent

namespace BackEnd

open Graph M

variable {Val D O C I : Type}

/-- The calls of `optimise` were for the keys `0, 1, …, o` in this order, each with everything the key needs. -/
structure CallsOk (cfg : Cfg) (o : Int) (calls : List (Int × GM Val D)) : Prop where
  order : calls.map Prod.fst = (List.range (o + 1).toNat).map Int.ofNat
  complete : ∀ c ∈ calls, 0 < c.1 → Complete cfg c.2 c.1
  stereo : ∀ c ∈ calls, ∀ e, c.2.keys.find "stereo" = some e → e.1 ≤ c.1
  poses : ∀ c ∈ calls, ∀ j, 0 ≤ j → j ≤ c.1 → hasVal c.2 .X j = .ok true
  imu : cfg.imu = true → ∀ c ∈ calls, ∀ j, 1 ≤ j → j ≤ c.1 → HasFactor c.2 .combinedImu j

/-- What holds at any time, even after an exception. -/
def Good (cfg : Cfg) (s : BE Val D O) : Prop := ∃ n, CallsOk cfg n s.calls

/-- The graph satisfies `A`, key `o` was optimised last, and the calls are as they should be. -/
def At (cfg : Cfg) (A : GM Val D → Prop) (o : Int) (s : BE Val D O) : Prop :=
  A s.isam.gm ∧ s.isam.optKey = o ∧ CallsOk cfg o s.calls

variable {cfg : Cfg} {A : GM Val D → Prop} {o : Int} {z : D} {p : Pm}

theorem At.good {s : BE Val D O} (h : At cfg A o s) : Good cfg s := ⟨o, h.2.2⟩

theorem At.mono {B : GM Val D → Prop} {s : BE Val D O} (h : At cfg A o s) (hab : ∀ g, A g → B g) : At cfg B o s :=
  ⟨hab _ h.1, h.2⟩

theorem at_pub : IndepPub (At (O := O) cfg A o) := fun _ _ h => h

/-- A method of the graph manager. -/
theorem tOnG {α : Type} {m : M (GM Val D) α} {B : α → GM Val D → Prop}
    (h : ∀ g, A g → ∀ a g', m g = (.ok a, g') → B a g') :
    Triple (At (O := O) cfg A o) (onG m) (fun a => At cfg (B a) o) (Good cfg) := by
  intro s hs
  obtain ⟨hA, ho, hc⟩ := hs
  simp only [onG, onIsam, onGm]
  rcases hr : m s.isam.gm with ⟨x, g'⟩
  cases x with
  | ok a => exact ⟨h _ hA a g' hr, ho, hc⟩
  | throws => exact ⟨o, hc⟩
  | ub => exact ⟨o, hc⟩

/-- A method that keeps `A`. -/
theorem tOnG_keeps {α : Type} {m : M (GM Val D) α} (h : Keeps A m) :
    Triple (At (O := O) cfg A o) (onG m) (fun _ => At cfg A o) (Good cfg) :=
  tOnG fun g hg a g' hr => by have := h g hg; rw [hr] at this; exact this

/-- Reading. -/
theorem tRead {α : Type} {f : GM Val D → Outcome α} {c : α → Prop} (h : ∀ g, A g → ∀ a, f g = .ok a → c a) :
    Triple (At (O := O) cfg A o) (read f) (fun a s => c a ∧ At cfg A o s) (Good cfg) := by
  intro s hs
  simp only [read]
  cases hf : f s.isam.gm with
  | ok a => exact ⟨h _ hs.1 a hf, hs⟩
  | throws => exact hs.good
  | ub => exact hs.good

theorem tRead' {α : Type} {f : GM Val D → Outcome α} :
    Triple (At (O := O) cfg A o) (read f) (fun _ => At cfg A o) (Good cfg) :=
  (tRead (c := fun _ => True) fun _ _ _ _ => trivial).conseq (fun _ h => h) (fun _ _ h => h.2) (fun _ h => h)

theorem tLift {α : Type} (x : Outcome α) :
    Triple (At (O := O) cfg A o) (M.lift x) (fun _ => At cfg A o) (Good cfg) :=
  Triple.lift fun s hs => by cases x <;> first | exact hs | exact hs.good

theorem tKeeps {α : Type} {m : M (BE Val D O) α} (h : Keeps (At cfg A o) m) :
    Triple (At (O := O) cfg A o) m (fun _ => At cfg A o) (Good cfg) :=
  (Triple.of_keeps h).conseq (fun _ h => h) (fun _ _ h => h) (fun _ h => h.good)

theorem tThrow {α : Type} {Q : α → BE Val D O → Prop} :
    Triple (At (O := O) cfg A o) (M.throw : M (BE Val D O) α) Q (Good cfg) := Triple.throw fun _ h => h.good

theorem tEmit (x : Pub Val) : Triple (At (O := O) cfg A o) (emit x) (fun _ => At cfg A o) (Good cfg) :=
  tKeeps (keeps_emit at_pub x)

theorem tBranch {α : Type} {P : BE Val D O → Prop} {Q : α → BE Val D O → Prop} {E : BE Val D O → Prop} {c : Prop}
    [Decidable c] {a b : M (BE Val D O) α} (ha : c → Triple P a Q E) (hb : ¬ c → Triple P b Q E) :
    Triple P (branch c a b) Q E := Triple.ite ha hb

theorem callsOk_snoc {calls : List (Int × GM Val D)} (h : CallsOk cfg o calls) (ho : -1 ≤ o) {g : GM Val D}
    (hc : 0 < o + 1 → Complete cfg g (o + 1)) (hst : ∀ e, g.keys.find "stereo" = some e → e.1 ≤ o + 1)
    (hpo : ∀ j, 0 ≤ j → j ≤ o + 1 → hasVal g .X j = .ok true)
    (him : cfg.imu = true → ∀ j, 1 ≤ j → j ≤ o + 1 → HasFactor g .combinedImu j) : CallsOk cfg (o + 1) (calls ++ [(o + 1, g)]) := by
  refine ⟨?_, ?_, ?_, ?_, ?_⟩
  · rw [List.map_append, h.order]
    have : (o + 1 + 1).toNat = (o + 1).toNat + 1 := by omega
    rw [this, List.range_succ, List.map_append]
    congr 1
    simp
    omega
  · intro c hm hp
    rcases List.mem_append.1 hm with hm | hm
    · exact h.complete c hm hp
    · simp at hm
      subst hm
      exact hc hp
  · intro c hm
    rcases List.mem_append.1 hm with hm | hm
    · exact h.stereo c hm
    · simp at hm
      subst hm
      exact hst
  · intro c hm
    rcases List.mem_append.1 hm with hm | hm
    · exact h.poses c hm
    · simp at hm
      subst hm
      exact hpo
  · intro hi c hm
    rcases List.mem_append.1 hm with hm | hm
    · exact h.imu hi c hm
    · simp at hm
      subst hm
      exact him hi

theorem find_stereo {i r t b : Int} {e : Int × Nat} (h : (keyList cfg i r t b).find "stereo" = some e) :
    cfg.stereo = true ∧ e.1 = t := by
  unfold keyList at h
  cases hb : cfg.baro <;> cases hr : cfg.reg <;> cases hs : cfg.stereo <;> simp [hb, hr, hs, OMap.find] at h ⊢ <;> rw [← h]

/-- `optimise` of the graph manager, when it succeeds. -/
theorem optimise_ok {er : EndRead} {api : OptApi Val D O} {k : Int} {s s' : Isam Val D O}
    (h : optimise er api k s = (.ok (), s')) : s'.optKey = k := by
  have key : Triple (fun _ : Isam Val D O => True) (optimise er api k) (fun _ s' => s'.optKey = k) (fun _ => True) := by
    have triv : ∀ {α : Type} (m : M (Isam Val D O) α), Triple (fun _ => True) m (fun _ _ => True) (fun _ => True) := by
      intro α m s _
      rcases m s with ⟨o, s'⟩
      cases o <;> trivial
    have keep : ∀ {α : Type} (m : M (Isam Val D O) α), Keeps (fun s => s.optKey = k) m →
        Triple (fun s => s.optKey = k) m (fun _ s => s.optKey = k) (fun _ => True) :=
      fun m hm => (Triple.of_keeps hm).conseq (fun _ h => h) (fun _ _ h => h) (fun _ _ => trivial)
    unfold optimise
    refine Triple.bind (triv _) fun fs => Triple.bind (triv _) fun vs => Triple.bind (triv _) fun s =>
      Triple.bind (triv _) fun o => Triple.bind (triv _) fun _ => ?_
    refine Triple.bind (Q := fun _ s => s.optKey = k) (Triple.modify fun s _ => rfl) fun _ => ?_
    refine keep _ ?_
    refine Keeps.bind (fun s h => h) fun _ => Keeps.bind Keeps.get fun s => Keeps.ite ?_ (Keeps.pure _)
    unfold marginalise
    refine Keeps.bind Keeps.get fun s => Keeps.ite Keeps.throw ?_
    refine Keeps.bind (fun s h => h) fun ks => ?_
    refine Keeps.bind (Keeps.modify fun s h => h) fun _ => Keeps.bind Keeps.get fun _ => Keeps.bind (Keeps.lift _) fun _ => ?_
    exact Keeps.modify fun s h => h
  have := key s trivial
  rw [h] at this
  exact this

/-- Optimising the next key. -/
theorem tOptimiseB (er : EndRead) (api : Api Val D O C I) (ho : -1 ≤ o) {k : Int} (hk : k = o + 1)
    (hT : cfg.stereo = true → p.t ≤ k) (hP : k ≤ p.np) (hI : k ≤ p.fi) (hA : ∀ g : GM Val D, GSt cfg z p g → 0 < k → Complete cfg g k) :
    Triple (At (O := O) cfg (GSt cfg z p) o) (optimiseB er api k) (fun _ => At cfg (GSt cfg z p) k) (Good cfg) := by
  subst hk
  intro s hs
  obtain ⟨hg, hok, hc⟩ := hs
  have hc' := callsOk_snoc hc ho (hA _ hg) (fun e he => by
    rw [hg.keys] at he
    obtain ⟨h1, h2⟩ := find_stereo he
    rw [h2]
    exact hT h1) (fun j h0 h1 => (hg.poses j).2 ⟨h0, le_trans h1 hP⟩)
    fun hc j h0 h1 => hg.imu hc j h0 (le_trans h1 hI)
  have hx := keeps_ext_optimise s.isam.gm er api.opt (o + 1) s.isam (Ext.refl hg.vinv hg.sorted)
  rcases hr : optimise er api.opt (o + 1) s.isam with ⟨x, i'⟩
  rw [hr] at hx
  simp only [optimiseB, modify_bind]
  rw [bind_run]
  simp only [onIsam, hr]
  cases x with
  | ok a =>
    simp only
    rw [bind_run]
    simp only [read]
    have hopt := optimise_ok (show optimise er api.opt (o + 1) s.isam = (.ok (), i') from hr)
    cases ht : timestamp i'.gm (o + 1) with
    | ok t => exact ⟨gst_ext hg hx, hopt, hc'⟩
    | throws => exact ⟨o + 1, hc'⟩
    | ub => exact ⟨o + 1, hc'⟩
  | throws => exact ⟨o + 1, hc'⟩
  | ub => exact ⟨o + 1, hc'⟩

theorem tPublish (api : Api Val D O C I) (cfg' : Cfg) (k : Int) :
    Triple (At (O := O) cfg A o) (publish api cfg' k) (fun _ => At cfg A o) (Good cfg) :=
  tKeeps (keeps_publish at_pub api cfg' k)

theorem tOptimiseAndPublish (er : EndRead) (api : Api Val D O C I) (cfg' : Cfg) (ho : -1 ≤ o) {k : Int} (hk : k = o + 1)
    (hT : cfg.stereo = true → p.t ≤ k) (hP : k ≤ p.np) (hI : k ≤ p.fi) (hA : ∀ g : GM Val D, GSt cfg z p g → 0 < k → Complete cfg g k) :
    Triple (At (O := O) cfg (GSt cfg z p) o) (optimiseAndPublish er api cfg' k) (fun _ => At cfg (GSt cfg z p) k)
      (Good cfg) :=
  Triple.bind (tOptimiseB er api ho hk hT hP hI hA) fun _ => tPublish api cfg' k

/-- Setting a velocity or an IMU bias. -/
theorem tSet (c : Fam) (hX : c ≠ .X) (hP : c ≠ .P) (k : Int) (v : Val) :
    Triple (At (O := O) cfg (GSt cfg z p) o) (onG (set c k v)) (fun _ => At cfg (GSt cfg z p) o) (Good cfg) :=
  tOnG_keeps (keeps_gst fun g0 => keeps_ext_set g0 c hX hP k v)

theorem tPlain (q : PlainKind) (hq : isBaro (.plain q) = false) (k : Int) (d : D) :
    Triple (At (Val := Val) (O := O) cfg (GSt cfg z p) o) (onG (createFactor q k d)) (fun _ => At cfg (GSt cfg z p) o) (Good cfg) :=
  tOnG_keeps (keeps_gst fun g0 => keeps_ext_createFactor g0 q hq k d)

theorem tUpdateVelocity (api : Api Val D O C I) (name : String) :
    Triple (At (O := O) cfg (GSt cfg z p) o) (updateVelocity api name) (fun _ => At cfg (GSt cfg z p) o) (Good cfg) := by
  unfold updateVelocity
  refine Triple.bind tRead' fun k1 => Triple.bind tRead' fun p1 => Triple.bind tRead' fun k => Triple.bind tRead' fun p =>
    Triple.bind tRead' fun dt => ?_
  exact tSet .V (by simp) (by simp) _ _

/-! ### The relations between the keys -/

/-- The numbers between two sections of a node that has received its initial odometry. -/
structure Side (cfg : Cfg) (p : Pm) (o : Int) : Prop where
  opt : 0 ≤ o
  poses : p.np = p.i
  times : p.nt = p.i
  imu : p.fi = p.i
  reg : p.fr = p.r
  gap : p.i = o ∨ p.i = o + 1
  regLe : cfg.reg = true → o ≤ p.r ∧ p.r ≤ p.i
  stereoLe : cfg.stereo = true → (o ≤ p.t ∨ (o = 0 ∧ p.t = -1)) ∧ p.t ≤ p.i

/-- The same before. -/
structure Side0 (p : Pm) (o : Int) : Prop where
  opt : o = -1
  poses : p.np = -1
  times : p.nt = -1
  imu : p.fi = 0
  reg : p.fr = 0
  i : p.i = 0
  r : p.r = 0
  t : p.t = -1

/-- Callbacks do not change the barometer numbers of the description. -/
def SameBaro (p p' : Pm) : Prop := p'.b = p.b ∧ p'.ba = p.ba

/-- The state after a section other than the barometer's, started with description `p`. -/
def After (cfg : Cfg) (z : D) (p : Pm) (s : BE Val D O) : Prop :=
  ∃ p' o', Side cfg p' o' ∧ SameBaro p p' ∧ At cfg (GSt cfg z p') o' s

theorem After.intro {p p' : Pm} {o' : Int} {s : BE Val D O} (h : At cfg (GSt cfg z p') o' s) (hb : SameBaro p p')
    (hs : Side cfg p' o') : After cfg z p s := ⟨p', o', hs, hb, h⟩

theorem complete_of {g : GM Val D} {p : Pm} {k : Int} (h : GSt cfg z p g) (h0 : 0 < k) (hnp : k ≤ p.np) (hnt : k ≤ p.nt)
    (hi : k ≤ p.fi) (hr : cfg.reg = true → k ≤ p.fr) (ht : cfg.stereo = true → k ≤ p.t) : Complete cfg g k := by
  refine ⟨?_, ?_, ?_, ?_, ?_⟩
  · exact (h.poses k).2 ⟨by omega, hnp⟩
  · exact (h.times k).2 ⟨by omega, hnt⟩
  · intro hc; exact h.imu hc k (by omega) hi
  · intro hc; exact h.reg hc k (by omega) (hr hc)
  · intro hc; exact ⟨p.t, by rw [key_stereo h hc]; simp, ht hc⟩

/-- The registration callback. -/
theorem tRegistration (er : EndRead) (api : Api Val D O C I) (msg : RegMsg D C) (hr : cfg.reg = true)
    (hs : Side cfg p o) :
    Triple (At (O := O) cfg (GSt cfg z p) o) (registrationBody er api cfg msg) (fun _ => After cfg z p) (Good cfg) := by
  have h1 := hs.opt; have h2 := hs.poses; have h3 := hs.times; have h4 := hs.imu; have h5 := hs.reg; have h6 := hs.gap
  have h7 := hs.regLe hr; have h8 := hs.stereoLe
  unfold registrationBody addRegistrationFactor
  refine Triple.bind (Q := fun _ => fun s => p.r + 1 ≤ p.i ∧ At cfg (GSt cfg z { p with r := p.r + 1, fr := p.fr + 1 }) o s)
    ?_ fun _ => Triple.pure_pre fun hle => ?_
  · refine Triple.bind (tOnG (B := fun _ => GSt cfg z { p with r := p.r + 1 }) ?_) fun _ => ?_
    · intro g hg a g' e
      obtain ⟨g'', e', hg'⟩ := gst_inc_reg hg hr
      rw [e'] at e
      obtain ⟨-, rfl⟩ := Prod.mk.injEq _ _ _ _ ▸ e
      exact hg'
    refine Triple.bind (tRead (c := fun k => k = p.r + 1) ?_) fun k => Triple.pure_pre fun hk => ?_
    · intro g hg a e
      rw [key_reg hg hr] at e
      simpa using (Outcome.ok.inj e).symm
    subst hk
    refine Triple.bind (tRead (c := fun _ => p.r + 1 ≤ p.i) ?_) fun t => Triple.pure_pre fun hle => ?_
    · intro g hg a e
      have := ((hg.times _).1 ⟨a, e⟩).2
      simp only at this
      omega
    refine Triple.ite (fun _ => tThrow) fun _ => Triple.ite (fun _ => tThrow) fun _ => Triple.ite (fun _ => tThrow) fun _ => ?_
    refine Triple.bind tRead' fun k1 => Triple.bind tRead' fun pp => ?_
    refine Triple.bind (tOnG (B := fun _ => GSt cfg z { p with r := p.r + 1 }) ?_) fun _ => ?_
    · intro g hg a g' e
      have := gst_setPose hg (k := p.r + 1) (by simp only; omega) _ g' e
      have e2 : max p.np (p.r + 1) = p.np := by omega
      simp only [e2] at this
      exact this
    · refine (tOnG (B := fun _ => GSt cfg z { p with r := p.r + 1, fr := p.fr + 1 }) ?_).conseq (fun _ h => h)
        (fun _ s h => ⟨hle, h⟩) (fun _ h => h)
      intro g hg a g' e
      have := gst_createReg hg (k := p.r + 1) (by simp only; omega) _ g' e
      have e2 : max p.fr (p.r + 1) = p.fr + 1 := by omega
      simp only [e2] at this
      exact this
  · refine Triple.bind (tRead (c := fun k => k = p.r + 1) ?_) fun k => Triple.pure_pre fun hk => ?_
    · intro g hg a e
      rw [key_reg hg hr] at e
      simpa using (Outcome.ok.inj e).symm
    subst hk
    refine Triple.bind (tRead (c := fun m => cfg.stereo = true → m ≤ p.t) ?_) fun m => Triple.pure_pre fun hm => ?_
    · intro g hg a e
      exact (minimumKey_gst hg e).2.2
    refine Triple.ite (fun e => ?_) fun _ => ?_
    · subst e
      have ho : p.r + 1 = o + 1 := by omega
      have hend : Triple (At (O := O) cfg (GSt cfg z { p with r := p.r + 1, fr := p.fr + 1 }) (p.r + 1))
          (do branch cfg.imu (pure ()) (updateVelocity api "reg"); publish api cfg (p.r + 1))
          (fun _ => After cfg z p) (Good cfg) := by
        refine Triple.bind (tBranch (fun _ => Triple.pure fun _ h => h) fun _ => tUpdateVelocity api "reg") fun _ => ?_
        refine (tPublish api cfg (p.r + 1)).conseq (fun _ h => h) (fun _ s h => ?_) (fun _ h => h)
        refine After.intro h ⟨rfl, rfl⟩ ?_
        refine ⟨by omega, h2, h3, h4, by simp only; omega, by simp only; omega, fun _ => by simp only; omega, fun hc => ?_⟩
        have := h8 hc
        have := hm hc
        simp only
        omega
      refine Triple.bind (tOptimiseB er api (by omega) ho (fun hc => by have := h8 hc; simp only; omega) (by simp only; omega) (by simp only; omega) ?_) fun _ => hend
      intro g hg h0
      exact complete_of hg h0 (by simp only; omega) (by simp only; omega) (by simp only; omega)
        (fun _ => by simp only; omega) (fun hc => hm hc)
    · refine Triple.pure fun s h => After.intro h ⟨rfl, rfl⟩ ?_
      exact ⟨h1, h2, h3, h4, by simp only; omega, h6, fun _ => by simp only; omega, h8⟩

/-- The stereo callback after its wait. -/
theorem tStereo (er : EndRead) (api : Api Val D O C I) (msg : StereoMsg) (ht : cfg.stereo = true)
    (hs : Side cfg p o) (hle : p.t + 1 ≤ p.i) :
    Triple (At (O := O) cfg (GSt cfg z p) o) (stereoIter er api cfg msg) (fun _ => After cfg z p) (Good cfg) := by
  have h1 := hs.opt; have h2 := hs.poses; have h3 := hs.times; have h4 := hs.imu; have h5 := hs.reg; have h6 := hs.gap
  have h7 := hs.regLe; have h8 := hs.stereoLe ht
  have hinc : Triple (At (Val := Val) (O := O) cfg (GSt cfg z p) o) (onG (increment "stereo"))
      (fun _ => At cfg (GSt cfg z { p with t := p.t + 1 }) o) (Good cfg) := by
    refine tOnG ?_
    intro g hg a g' e
    obtain ⟨g'', e', hg'⟩ := gst_inc_stereo hg ht
    rw [e'] at e
    obtain ⟨-, rfl⟩ := Prod.mk.injEq _ _ _ _ ▸ e
    exact hg'
  unfold stereoIter
  refine Triple.bind tRead' fun k1 => Triple.bind tRead' fun t => ?_
  refine Triple.ite (fun _ => ?_) fun _ => Triple.pure fun s h => ⟨p, o, hs, ⟨rfl, rfl⟩, h⟩
  refine Triple.bind (Q := fun _ => At cfg (GSt cfg z { p with t := p.t + 1 }) o) (tBranch (fun _ => ?_) fun _ => hinc)
    fun _ => ?_
  · unfold addStereoFactors
    refine Triple.bind hinc fun _ => Triple.bind tRead' fun k => Triple.bind tRead' fun t' => ?_
    refine Triple.ite (fun _ => tThrow) fun _ => ?_
    refine Triple.bind (Triple.get (Q := fun _ => At cfg (GSt cfg z { p with t := p.t + 1 }) o) fun _ h => h) fun s => ?_
    refine Triple.bind (tBranch (fun _ => tBranch (fun _ => tThrow) fun _ =>
      tOnG_keeps (keeps_gst fun g0 => keeps_ext_setCalibration g0 _)) fun _ => Triple.pure fun _ h => h) fun _ => ?_
    refine Triple.bind (tLift _) fun fs => ?_
    exact tOnG_keeps (keeps_gst fun g0 => keeps_ext_createStereo g0 _ _)
  · refine Triple.bind (tRead (c := fun m => cfg.reg = true → m ≤ p.r) ?_) fun m => Triple.pure_pre fun hm => ?_
    · intro g hg a e
      exact (minimumKey_gst hg e).2.1
    refine Triple.bind (tRead (c := fun k => k = p.t + 1) ?_) fun k => Triple.pure_pre fun hk => ?_
    · intro g hg a e
      rw [key_stereo hg ht] at e
      simpa using (Outcome.ok.inj e).symm
    subst hk
    refine Triple.bind (Q := fun _ => After cfg z p) (tBranch (fun e => ?_) fun _ => ?_) fun _ => Triple.pure fun _ h => h
    · obtain ⟨rfl, h0⟩ := e
      have ho : p.t + 1 = o + 1 := by omega
      have hend : Triple (At (O := O) cfg (GSt cfg z { p with t := p.t + 1 }) (p.t + 1))
          (branch cfg.imu (pure ()) (updateVelocity api "stereo"))
          (fun _ => After cfg z p) (Good cfg) := by
        refine Triple.conseq (Q := fun _ => At cfg (GSt cfg z { p with t := p.t + 1 }) (p.t + 1))
          (tBranch (fun _ => Triple.pure fun _ h => h) fun _ => tUpdateVelocity api "stereo")
          (fun _ h => h) (fun _ s h => ?_) (fun _ h => h)
        refine After.intro h ⟨rfl, rfl⟩ ?_
        refine ⟨by omega, h2, h3, h4, h5, by simp only; omega, fun hc => ?_, fun _ => by simp only; omega⟩
        have := h7 hc
        have := hm hc
        simp only
        omega
      refine Triple.bind (tOptimiseAndPublish er api cfg (by omega) ho (fun _ => le_refl _) (by simp only; omega) (by simp only; omega) ?_) fun _ => hend
      intro g hg h0
      refine complete_of hg h0 (by simp only; omega) (by simp only; omega) (by simp only; omega)
        (fun hc => ?_) (fun _ => by simp only; omega)
      have := hm hc
      simp only
      omega
    · refine Triple.pure fun s h => After.intro h ⟨rfl, rfl⟩ ?_
      exact ⟨h1, h2, h3, h4, h5, h6, h7, fun _ => by simp only; omega⟩

/-- The IMU callback after its wait (key `o` is the newest). -/
theorem tImu (er : EndRead) (api : Api Val D O C I) (msg : ImuMsg I) (hs : Side cfg p o) (hi : p.i = o) :
    Triple (At (O := O) cfg (GSt cfg z p) o) (imuBody er api cfg msg) (fun _ => After cfg z p) (Good cfg) := by
  have h1 := hs.opt; have h2 := hs.poses; have h3 := hs.times; have h4 := hs.imu; have h5 := hs.reg
  have h7 := hs.regLe; have h8 := hs.stereoLe
  unfold imuBody
  refine Triple.bind tRead' fun k0 => Triple.bind tRead' fun b0 => Triple.bind (tLift _) fun pre => ?_
  refine Triple.bind (tOnG (B := fun _ => GSt cfg z { p with i := p.i + 1 }) ?_) fun _ => ?_
  · intro g hg a g' e
    obtain ⟨g'', e', hg'⟩ := gst_inc_imu hg
    rw [e'] at e
    obtain ⟨-, rfl⟩ := Prod.mk.injEq _ _ _ _ ▸ e
    exact hg'
  refine Triple.bind tRead' fun k1 => Triple.bind tRead' fun b1 => ?_
  refine Triple.bind (tRead (c := fun k => k = p.i + 1) ?_) fun k => Triple.pure_pre fun hk => ?_
  · intro g hg a e
    rw [key_imu hg] at e
    simpa using (Outcome.ok.inj e).symm
  subst hk
  refine Triple.bind (tSet .B (by simp) (by simp) _ _) fun _ => ?_
  refine Triple.bind tRead' fun nav => Triple.bind tRead' fun b2 => ?_
  refine Triple.bind (tOnG (B := fun _ => GSt cfg z { p with i := p.i + 1, np := p.i + 1 }) ?_) fun _ => ?_
  · intro g hg a g' e
    unfold setNavstate at e
    rw [bind_run] at e
    rcases hx : set .X (p.i + 1) (api.predict nav.1 nav.2 b2 pre).1 g with ⟨x, g1⟩
    rw [hx] at e
    cases x with
    | throws => cases e
    | ub => cases e
    | ok u =>
      have hg1 := gst_setPose hg (k := p.i + 1) (by simp only; omega) _ g1 hx
      have e2 : max p.np (p.i + 1) = p.i + 1 := by omega
      simp only [e2] at hg1
      have := keeps_gst (cfg := cfg) (z := z) (fun g0 => keeps_ext_set g0 .V (by simp) (by simp) (p.i + 1)
        (api.predict nav.1 nav.2 b2 pre).2) g1 hg1
      simp only at e
      rw [e] at this
      exact this
  refine Triple.bind (tOnG (B := fun _ => GSt cfg z { p with i := p.i + 1, np := p.i + 1, nt := p.i + 1 }) ?_) fun _ => ?_
  · intro g hg a g' e
    have := gst_setTimestamp hg (k := p.i + 1) (by simp only; omega) (by omega) _ g' e
    have e2 : max p.nt (p.i + 1) = p.i + 1 := by omega
    simp only [e2] at this
    exact this
  refine Triple.bind tRead' fun ps => Triple.ite (fun _ => tThrow) fun _ => ?_
  refine Triple.bind tRead' fun v => Triple.ite (fun _ => tThrow) fun _ => ?_
  refine Triple.bind tRead' fun p1 => Triple.bind tRead' fun t => Triple.bind (tEmit _) fun _ => ?_
  refine Triple.ite (fun hc => ?_) fun hc => ?_
  · refine Triple.bind (tOnG (B := fun _ =>
      GSt cfg z { p with i := p.i + 1, np := p.i + 1, nt := p.i + 1, fi := p.i + 1 }) ?_) fun _ => ?_
    · intro g hg a g' e
      have := gst_createImu hg (k := p.i + 1) (by simp only; omega) _ g' e
      have e2 : max p.fi (p.i + 1) = p.i + 1 := by omega
      simp only [e2] at this
      exact this
    refine Triple.bind (tRead (c := fun m => (cfg.reg = true → m ≤ p.r) ∧ (cfg.stereo = true → m ≤ p.t)) ?_) fun m =>
      Triple.pure_pre fun hm => ?_
    · intro g hg a e
      exact (minimumKey_gst hg e).2
    refine Triple.ite (fun e => ?_) fun _ => ?_
    · subst e
      refine (tOptimiseAndPublish er api cfg (by omega) (by omega) (fun hc => by have := h8 hc; simp only; omega) (by simp only; omega) (by simp only; omega) ?_).conseq (fun _ h => h) (fun _ s h => ?_) (fun _ h => h)
      · intro g hg h0
        exact complete_of hg h0 (by simp only; omega) (by simp only; omega) (by simp only; omega)
          (fun hc => by have := hm.1 hc; simp only; omega) hm.2
      · refine After.intro h ⟨rfl, rfl⟩ ?_
        refine ⟨by omega, rfl, rfl, rfl, h5, Or.inl rfl, fun hc => ?_, fun hc => ?_⟩
        · have := h7 hc; have := hm.1 hc; simp only; omega
        · have := h8 hc; have := hm.2 hc; simp only; omega
    · refine Triple.pure fun s h => After.intro h ⟨rfl, rfl⟩ ?_
      refine ⟨h1, rfl, rfl, rfl, h5, by simp only; omega, fun hc => ?_, fun hc => ?_⟩
      · have := h7 hc; simp only; omega
      · have := h8 hc; simp only; omega
  · refine Triple.pure fun s h => ⟨{ p with i := p.i + 1, np := p.i + 1, nt := p.i + 1, fi := p.i + 1 }, o, ?_,
      ⟨rfl, rfl⟩, h.mono ?_⟩
    · refine ⟨h1, rfl, rfl, rfl, h5, by simp only; omega, fun hc => ?_, fun hc => ?_⟩
      · have := h7 hc; simp only; omega
      · have := h8 hc; simp only; omega
    · intro g hg
      exact ⟨hg.keys, hg.vinv, hg.sorted, hg.tsorted, hg.poses, hg.times, fun h => absurd h hc, hg.reg, hg.baro⟩

/-- The first odometry. -/
theorem tInitial (er : EndRead) (api : Api Val D O C I) (msg : OdomMsg Val C) (hs : Side0 p o) :
    Triple (At (O := O) cfg (GSt cfg z p) o) (initialBody er api cfg msg) (fun _ => After cfg z p) (Good cfg) := by
  obtain ⟨h1, h2, h3, h4, h5, h6, h7, h8⟩ := hs
  unfold initialBody
  refine Triple.bind (tSet .B (by simp) (by simp) _ _) fun _ => ?_
  refine Triple.bind (tOnG (B := fun _ => GSt cfg z { p with np := 0 }) ?_) fun _ => ?_
  · intro g hg a g' e
    have := gst_setPose hg (k := 0) (by omega) _ g' e
    have e2 : max p.np 0 = 0 := by omega
    simp only [e2] at this
    exact this
  refine Triple.bind (tOnG (B := fun _ => GSt cfg z { p with np := 0, nt := 0 }) ?_) fun _ => ?_
  · intro g hg a g' e
    have := gst_setTimestamp hg (k := 0) (by simp only; omega) (by omega) _ g' e
    have e2 : max p.nt 0 = 0 := by omega
    simp only [e2] at this
    exact this
  refine Triple.bind (tSet .V (by simp) (by simp) _ _) fun _ => ?_
  refine Triple.ite (fun _ => tThrow) fun _ => ?_
  refine Triple.bind tRead' fun pp => Triple.bind (tPlain .priorPose rfl _ _) fun _ => ?_
  refine Triple.bind (Q := fun _ => At cfg (GSt cfg z { p with np := 0, nt := 0 }) o) (tBranch (fun _ => ?_) fun _ =>
    Triple.pure fun _ h => h) fun _ => ?_
  · refine Triple.ite (fun _ => tThrow) fun _ => Triple.bind tRead' fun v => Triple.bind (tPlain .priorVelocity rfl _ _) fun _ => ?_
    refine Triple.ite (fun _ => tThrow) fun _ => Triple.ite (fun _ => tThrow) fun _ => ?_
    exact Triple.bind tRead' fun b => tPlain .priorImuBias rfl _ _
  refine Triple.bind (tEmit _) fun _ => ?_
  refine (tOptimiseAndPublish er api cfg (by omega) (by omega) (fun _ => by simp only; omega) (by simp only; omega) (by simp only; omega) ?_).conseq (fun _ h => h) (fun _ s h => ?_) (fun _ h => h)
  · intro g hg h0
    omega
  · refine After.intro h ⟨rfl, rfl⟩ ⟨by omega, by simp only; omega, by simp only; omega, by simp only; omega,
      by simp only; omega, by simp only; omega, fun _ => by simp only; omega, fun _ => ⟨Or.inr ⟨rfl, h8⟩, by simp only; omega⟩⟩

theorem tGuarded {α : Type} {m : M (BE Val D O) α} {P : BE Val D O → Prop} {Q : α → BE Val D O → Prop}
    {E : BE Val D O → Prop} (hP : ∀ s b, P s → P { s with locked := b }) (hQ : ∀ a s b, Q a s → Q a { s with locked := b })
    (hE : ∀ s b, E s → E { s with locked := b }) (h : Triple P m Q E) : Triple P (guarded m) Q E := by
  intro s hs
  have := h _ (hP s true hs)
  simp only [guarded]
  rcases hr : m { s with locked := true } with ⟨x, s'⟩
  rw [hr] at this
  cases x with
  | ok a => exact hQ _ _ _ this
  | throws => exact hE _ _ this
  | ub => exact hE _ _ this

/-! ### Barometer -/

/-- Moving the barometer key forward over stored poses. -/
theorem tBaroAdvance (hb : cfg.baro = true) (stamp : Int) (n : Nat) (p : Pm) :
    Triple (At (Val := Val) (O := O) cfg (GSt cfg z p) o) (baroAdvance stamp n)
      (fun _ s => ∃ b', p.b ≤ b' ∧ At cfg (GSt cfg z { p with b := b' }) o s) (Good cfg) := by
  induction n generalizing p with
  | zero => exact Triple.pure fun s h => ⟨p.b, le_refl _, h⟩
  | succ n ih =>
    unfold baroAdvance
    refine Triple.bind tRead' fun k => Triple.bind tRead' fun hp => ?_
    refine Triple.ite (fun _ => ?_) fun _ => Triple.pure fun s h => ⟨p.b, le_refl _, h⟩
    refine Triple.bind tRead' fun t => Triple.ite (fun _ => ?_) fun _ => Triple.pure fun s h => ⟨p.b, le_refl _, h⟩
    refine Triple.bind (tOnG (B := fun _ => GSt cfg z { p with b := p.b + 1 }) ?_) fun _ => ?_
    · intro g hg a g' e
      obtain ⟨g'', e', hg'⟩ := gst_inc_baro hg hb
      rw [e'] at e
      obtain ⟨-, rfl⟩ := Prod.mk.injEq _ _ _ _ ▸ e
      exact hg'
    · refine (ih { p with b := p.b + 1 }).conseq (fun _ h => h) (fun _ s h => ?_) (fun _ h => h)
      obtain ⟨b', h1, h2⟩ := h
      exact ⟨b', by simp only at h1; omega, h2⟩

/-- The wait condition of the barometer callback: when it is false, the barometer key has a pose. -/
theorem tBaroWait (hb : cfg.baro = true) (stamp : Int) (p : Pm) :
    Triple (At (Val := Val) (O := O) cfg (GSt cfg z p) o) (baroWait stamp)
      (fun w s => ∃ b', p.b ≤ b' ∧ (w = false → 0 ≤ b' ∧ b' ≤ p.np) ∧ At cfg (GSt cfg z { p with b := b' }) o s)
      (Good cfg) := by
  unfold baroWait
  refine Triple.bind (Triple.get (Q := fun _ => At cfg (GSt cfg z p) o) fun _ h => h) fun s0 => ?_
  refine Triple.bind (tBaroAdvance hb stamp _ p) fun _ => ?_
  intro s ⟨b', hle, hA⟩
  have key : Triple (At (Val := Val) (O := O) cfg (GSt cfg z { p with b := b' }) o) (do
      let k ← read (fun g => key g "barometer" 0)
      let hp ← read (fun g => hasPose g k)
      if hp then do
        let t ← read (fun g => timestamp g k)
        pure (decide (t < stamp))
      else pure true)
      (fun w s => ∃ b', p.b ≤ b' ∧ (w = false → 0 ≤ b' ∧ b' ≤ p.np) ∧ At cfg (GSt cfg z { p with b := b' }) o s)
      (Good cfg) := by
    refine Triple.bind (tRead (c := fun k => k = b') ?_) fun k => Triple.pure_pre fun hk => ?_
    · intro g hg a e
      rw [key_baro hg hb] at e
      simpa using (Outcome.ok.inj e).symm
    subst hk
    refine Triple.bind (tRead (c := fun hp => hp = true → 0 ≤ k ∧ k ≤ p.np) ?_) fun hp => Triple.pure_pre fun hk => ?_
    · intro g hg a e ha
      subst ha
      exact (hg.poses k).1 e
    refine Triple.ite (fun e => ?_) fun _ => Triple.pure fun s h => ⟨k, hle, by simp, h⟩
    exact Triple.bind tRead' fun t => Triple.pure fun s h => ⟨k, hle, fun _ => hk e, h⟩
  exact key s hA

/-- The numbers of the barometer between two messages: `c` keys are covered. -/
def BaroSide (c : Int) (ba : BaroP) : Prop :=
  0 ≤ c ∧ ba.cv = c ∧ ba.cw = max 1 c ∧ ba.cp = c ∧ ba.pf = ba.f ∧ (ba.f = none ↔ c = 0)

theorem tBaroLoop (api : Api Val D O C I) (n : Nat) (k : Int) (h1 : 1 ≤ k) (p : Pm) (hv : p.ba.cv = k) (hw : p.ba.cw = k) :
    Triple (At (Val := Val) (O := O) cfg (GSt cfg api.zero p) o) (baroBiasLoop api n k)
      (fun _ => At cfg (GSt cfg api.zero { p with ba := { p.ba with cv := k + n, cw := k + n } }) o) (Good cfg) := by
  induction n generalizing k p with
  | zero =>
    refine Triple.pure fun s h => ?_
    have : ({ p with ba := { p.ba with cv := k + (0 : Nat), cw := k + (0 : Nat) } } : Pm) = p := by
      cases p; rename_i ba; cases ba; simp at hv hw; simp [hv, hw]
    rw [this]
    exact h
  | succ n ih =>
    unfold baroBiasLoop
    refine Triple.bind (tOnG (B := fun _ => GSt cfg api.zero { p with ba := { p.ba with cw := k + 1 } }) ?_) fun _ => ?_
    · intro g hg a g' e
      exact gst_createWalk hg hw h1 g' e
    refine Triple.bind tRead' fun b => ?_
    refine Triple.bind (tOnG (B := fun _ => GSt cfg api.zero { p with ba := { p.ba with cv := k + 1, cw := k + 1 } }) ?_) fun _ => ?_
    · intro g hg a g' e
      exact gst_setBias hg hv b g' e
    have := ih (k + 1) (by omega) { p with ba := { p.ba with cv := k + 1, cw := k + 1 } } rfl rfl
    have e : k + 1 + (n : Int) = k + ((n + 1 : Nat) : Int) := by omega
    rw [e] at this
    exact this

/-- A barometer message: afterwards all keys up to the one of the message are covered. -/
theorem tBaroBody (api : Api Val D O C I) (cfg' : Cfg) (hb : cfg.baro = true) (msg : BaroMsg) (next : Int)
    (hs : BaroSide next p.ba) (hle : next ≤ p.b) :
    Triple (At (Val := Val) (O := O) cfg (GSt cfg api.zero p) o) (baroBody api cfg' next msg)
      (fun _ s => ∃ ba, BaroSide (p.b + 1) ba ∧ At cfg (GSt cfg api.zero { p with b := p.b + 1, ba := ba }) o s) (Good cfg) := by
  obtain ⟨h0, hv, hw, hp, hpf, hf⟩ := hs
  unfold baroBody
  refine Triple.bind (tRead (c := fun k => k = p.b) ?_) fun k => Triple.pure_pre fun hk => ?_
  · intro g hg a e
    rw [key_baro hg hb] at e
    simpa using (Outcome.ok.inj e).symm
  subst hk
  refine Triple.bind tRead' fun t => Triple.ite (fun _ => tThrow) fun _ => Triple.ite (fun _ => tThrow) fun _ => ?_
  refine Triple.bind (tOnG (B := fun _ => GSt cfg api.zero
    { p with ba := { p.ba with cp := p.b + 1, f := some (p.ba.f.getD p.b) } }) ?_) fun _ => ?_
  · intro g hg a g' e
    exact gst_createPress hg (by omega) _ g' e
  refine Triple.bind (Q := fun _ => At cfg (GSt cfg api.zero { p with ba :=
    { cv := max 1 next, cw := max 1 next, cp := p.b + 1, f := some (p.ba.f.getD p.b), pf := some (p.ba.f.getD p.b) } }) o)
    (tBranch (fun h => ?_) fun h => ?_) fun _ => ?_
  · subst h
    have hfn : p.ba.f = none := hf.2 rfl
    refine Triple.bind (tOnG (B := fun _ => GSt cfg api.zero
      { p with ba := { p.ba with cv := 1, cp := p.b + 1, f := some (p.ba.f.getD p.b) } }) ?_) fun _ => ?_
    · intro g hg a g' e
      exact gst_setBias hg (k := 0) hv _ g' e
    refine tBranch (fun _ => tThrow) fun _ => ?_
    refine tOnG ?_
    intro g hg a g' e
    have := gst_createPrior hg (k := p.b) (by simp only; rw [hpf]; exact hfn) _ g' e
    simp only [hw, hfn] at this
    simp only [hfn]
    exact this
  · refine Triple.pure fun s h' => h'.mono fun g hg => ?_
    have hne : p.ba.f ≠ none := fun e => h (hf.1 e)
    obtain ⟨f0, hf0⟩ := Option.ne_none_iff_exists'.1 hne
    have e1 : max 1 next = next := by omega
    rw [hf0] at hpf hg ⊢
    simp only [hv, hw, e1, hpf] at hg
    simp only [e1]
    exact hg
  · refine Triple.bind (tBaroLoop api _ _ (by omega) _ rfl rfl) fun _ => ?_
    have ec : max 1 next + ((p.b - max 1 next + 1).toNat : Int) = p.b + 1 ∨ (p.b = 0 ∧ next = 0) := by omega
    refine (tOnG (B := fun _ => GSt cfg api.zero { p with b := p.b + 1, ba :=
      { cv := p.b + 1, cw := max 1 (p.b + 1), cp := p.b + 1, f := some (p.ba.f.getD p.b), pf := some (p.ba.f.getD p.b) } }) ?_).conseq
      (fun _ h => h) (fun _ s h => ⟨_, ?_, h⟩) (fun _ h => h)
    · intro g hg a g' e
      obtain ⟨g'', e', hg'⟩ := gst_inc_baro hg hb
      rw [e'] at e
      obtain ⟨-, rfl⟩ := Prod.mk.injEq _ _ _ _ ▸ e
      simp only at hg'
      have e1 : max 1 next + ((p.b - max 1 next + 1).toNat : Int) = p.b + 1 := by omega
      have e2 : max 1 (p.b + 1) = p.b + 1 := by omega
      rw [e1] at hg'
      rw [e2]
      exact hg'
    · exact ⟨by omega, rfl, rfl, rfl, rfl, by simp; omega⟩

/-! ### The node -/

/-- The invariant of the node. -/
structure NInv (cfg : Cfg) (z : D) (s : Sys Val D O) (p : Pm) (o : Int) : Prop where
  graph : At cfg (GSt cfg z p) o s.be
  side : s.started = true → Side cfg p o
  side0 : s.started = false → Side0 p o
  baro : match s.baro with
    | none => BaroSide p.b p.ba
    | some next => cfg.baro = true ∧ next ≤ p.b ∧ BaroSide next p.ba

theorem gst_init (cfg : Cfg) (z : D) (g : GM Val D) (hg : g = { keys := keyList cfg 0 0 (-1) 0, extrinsicSet := g.extrinsicSet }) :
    GSt cfg z ⟨0, 0, -1, 0, -1, -1, 0, 0, ⟨0, 1, 0, none, none⟩⟩ g := by
  rw [hg]
  have hv : ∀ c k, hasVal ({ keys := keyList cfg 0 0 (-1) 0, extrinsicSet := g.extrinsicSet } : GM Val D) c k ≠ .ok true := by
    intro c k h
    have := (hasVal_ok h)
    unfold hasVal at h
    cases hs : sym c k with
    | ub => rw [hs] at h; cases h
    | throws => rw [hs] at h; cases h
    | ok raw => rw [hs] at h; simp [OMap.contains, OMap.find] at h
  refine ⟨rfl, ⟨List.Pairwise.nil, List.Pairwise.nil, by simp [OMap.find], by simp [OMap.contains, OMap.find]⟩,
    List.Pairwise.nil, List.Pairwise.nil, ?_, ?_, ?_, ?_, ?_⟩
  · intro k
    constructor
    · intro h; exact absurd h (hv _ _)
    · intro h; simp only at h; omega
  · intro k
    constructor
    · rintro ⟨t, h⟩; simp [timestamp, OMap.find] at h
    · intro h; simp only at h; omega
  · intro _ k h1 h2; simp only at h2; omega
  · intro _ k h1 h2; simp only at h2; omega
  · refine ⟨?_, ?_, ?_, ?_, ?_⟩
    · intro k
      constructor
      · intro h; exact absurd h (hv _ _)
      · intro h; simp only at h; omega
    · intro k
      have : ¬ (1 ≤ k ∧ k < 1) := by omega
      simp [factorsAt, OMap.find, this]
    · intro k; simp [factorsAt, OMap.find]
    · intro k x hx; simp [factorsAt, OMap.find] at hx
    · intro f0 hf; simp at hf

theorem ltb_eq_true {a b : String} (h : a.toList < b.toList) :
    String.ltb (String.Legacy.iter a) (String.Legacy.iter b) = true := by
  have := String.lt_iff_toList_lt.2 h
  simpa using this
theorem ltb_barometer_imu :  String.ltb (String.Legacy.iter "barometer") (String.Legacy.iter "imu") = true := ltb_eq_true (by decide +kernel)
set_option linter.unusedSimpArgs false in
theorem construct_ok {cfg : Cfg} {o : O} {b : BE Val D O} (h : initSys cfg o = (.ok (), b)) :
    b.isam.gm = { keys := keyList cfg 0 0 (-1) 0, extrinsicSet := cfg.stereo } ∧ b.isam.optKey = -1 ∧ b.calls = [] := by
  unfold initSys construct at h
  obtain ⟨imu, reg, stereo, baro, n1, n2, n3, n4, w, pre, mf⟩ := cfg
  cases reg <;> cases stereo <;> cases baro <;> by_cases hn : n1 = 0 <;> cases w <;>
   simp [branch, bind_run, onG, onIsam, onGm, setNamedKey, setExtrinsic, keyList, OMap.emplace, OMap.find, OMap.alter, ltb_barometer_imu, ltb_imu_barometer, ltb_reg_barometer, ltb_reg_imu, ltb_stereo_barometer, ltb_stereo_imu, ltb_stereo_reg, hn, setMarginalisation] at h ⊢ <;> (try split at h) <;> (try simp only [onIsam, modify_run, Prod.mk.injEq, true_and] at h) <;> (try simp only [M.throw, Prod.mk.injEq, reduceCtorEq, false_and] at h) <;> subst h <;> simp

/-- A section run with a postcondition. -/
theorem sect_cases {α : Type} {m : M (BE Val D O) α} {f : Sys Val D O → Sys Val D O} {s s' : Sys Val D O}
    {r : Outcome Unit} {P : BE Val D O → Prop} {Q : α → BE Val D O → Prop} (ht : Triple P m Q (Good cfg)) (hp : P s.be)
    (h : sect m f s = some (r, s')) :
    (r = .ok () ∧ ∃ a b, Q a b ∧ s' = f { s with be := b }) ∨ (r ≠ .ok () ∧ Good cfg s'.be) := by
  have := ht s.be hp
  unfold sect at h
  rcases hr : m s.be with ⟨x, b⟩
  rw [hr] at this h
  cases x with
  | ok a =>
    simp only [Option.some.injEq, Prod.mk.injEq] at h
    exact Or.inl ⟨h.1.symm, a, b, this, h.2.symm⟩
  | throws =>
    simp only [Option.some.injEq, Prod.mk.injEq] at h
    obtain ⟨rfl, rfl⟩ := h
    exact Or.inr ⟨by simp, this⟩
  | ub =>
    simp only [Option.some.injEq, Prod.mk.injEq] at h
    obtain ⟨rfl, rfl⟩ := h
    exact Or.inr ⟨by simp, this⟩

theorem sectAfter_cases {α : Type} {wait : M (BE Val D O) Bool} {m : M (BE Val D O) α} {f : Sys Val D O → Sys Val D O}
    {s s' : Sys Val D O} {r : Outcome Unit} {P : BE Val D O → Prop} {W : Bool → BE Val D O → Prop}
    {Q : α → BE Val D O → Prop} (hw : Triple P wait W (Good cfg))
    (ht : ∀ b, W false b → Triple (fun b' => b' = b) m Q (Good cfg)) (hp : P s.be)
    (h : sectAfter wait m f s = some (r, s')) :
    (r = .ok () ∧ ∃ a b, Q a b ∧ s' = f { s with be := b }) ∨ (r ≠ .ok () ∧ Good cfg s'.be) := by
  have := hw s.be hp
  unfold sectAfter at h
  rcases hr : wait s.be with ⟨x, b⟩
  rw [hr] at this h
  cases x with
  | ok w =>
    cases w with
    | true => simp at h
    | false => exact sect_cases (ht b this) (s := { s with be := b }) rfl h
  | throws =>
    simp only [Option.some.injEq, Prod.mk.injEq] at h
    obtain ⟨rfl, rfl⟩ := h
    exact Or.inr ⟨by simp, this⟩
  | ub =>
    simp only [Option.some.injEq, Prod.mk.injEq] at h
    obtain ⟨rfl, rfl⟩ := h
    exact Or.inr ⟨by simp, this⟩

theorem ninv_after {s : Sys Val D O} {p : Pm} {b : BE Val D O} (hn : NInv cfg z s p o) (h : After cfg z p b) :
    ∃ p' o', NInv cfg z ({ s with be := b, started := true }) p' o' := by
  obtain ⟨p', o', hs, ⟨e1, e2⟩, hA⟩ := h
  refine ⟨p', o', hA, fun _ => hs, by simp, ?_⟩
  have := hn.baro
  simp only
  split <;> rename_i hb <;> rw [hb] at this <;> simp only [e1, e2] at this ⊢ <;> exact this

/-- Waiting for the next IMU key. -/
theorem tImuWait : Triple (At (Val := Val) (O := O) cfg (GSt cfg z p) o) (do imuWarn; imuWait)
    (fun w s => (w = false → p.i = o ∧ (∃ t, p.nt = t)) ∧ At cfg (GSt cfg z p) o s) (Good cfg) := by
  refine Triple.bind (tKeeps keeps_imuWarn) fun _ => ?_
  unfold imuWait
  intro s hs
  obtain ⟨hg, ho, hc⟩ := hs
  simp only [get_bind]
  rw [bind_run]
  simp only [read, key_imu hg]
  refine ⟨?_, hg, ho, hc⟩
  intro h
  simp only [decide_eq_false_iff_not, not_not] at h
  exact ⟨by rw [ho] at h; omega, _, rfl⟩

theorem imuWarn_before {s : BE Val D O} (h : At cfg (GSt cfg z p) o s) (h0 : Side0 p o) :
    (do imuWarn; imuWait : M (BE Val D O) Bool) s = (.throws, s) := by
  obtain ⟨hg, ho, hc⟩ := h
  have ht : timestamp s.isam.gm o = .throws := by
    cases ht : timestamp s.isam.gm o with
    | throws => rfl
    | ok t =>
      have := (hg.times o).1 ⟨t, ht⟩
      have := h0.opt
      omega
    | ub => unfold timestamp at ht; split at ht <;> simp at ht
  rw [bind_run]
  unfold imuWarn
  simp only [get_bind]
  rw [bind_run]
  simp only [read, key_imu hg, ho]
  rw [if_pos (by have := h0.opt; have := h0.i; omega)]
  rw [bind_run]
  simp only [read, ht]

theorem tStereoWait (hc : cfg.stereo = true) : Triple (At (Val := Val) (O := O) cfg (GSt cfg z p) o) stereoWait
    (fun w s => (w = false → p.t + 1 ≤ p.np ∧ 0 ≤ p.t + 1) ∧ At cfg (GSt cfg z p) o s) (Good cfg) := by
  unfold stereoWait
  refine Triple.bind (tRead (c := fun k => k = p.t + 1) ?_) fun k => Triple.pure_pre fun hk => ?_
  · intro g hg a e
    rw [key_stereo hg hc] at e
    simpa using (Outcome.ok.inj e).symm
  subst hk
  refine Triple.bind (tRead (c := fun hp => hp = true → p.t + 1 ≤ p.np ∧ 0 ≤ p.t + 1) ?_) fun hp => Triple.pure_pre fun hk => ?_
  · intro g hg a e ha
    subst ha
    exact ((hg.poses _).1 e).symm
  exact Triple.pure fun s h => ⟨fun e => hk (by simpa using e), h⟩

/-- The registration callback before the initial odometry. -/
theorem tRegistration0 (er : EndRead) (api : Api Val D O C I) (msg : RegMsg D C) (hr : cfg.reg = true)
    (hs : Side0 p o) :
    Triple (At (O := O) cfg (GSt cfg z p) o) (registrationBody er api cfg msg) (fun _ _ => False) (Good cfg) := by
  unfold registrationBody addRegistrationFactor
  refine Triple.bind (Q := fun _ _ => False) ?_ fun _ => fun s hs => hs.elim
  refine Triple.bind (tOnG (B := fun _ => GSt cfg z { p with r := p.r + 1 }) ?_) fun _ => ?_
  · intro g hg a g' e
    obtain ⟨g'', e', hg'⟩ := gst_inc_reg hg hr
    rw [e'] at e
    obtain ⟨-, rfl⟩ := Prod.mk.injEq _ _ _ _ ▸ e
    exact hg'
  refine Triple.bind tRead' fun k => ?_
  refine Triple.bind (tRead (c := fun _ => False) ?_) fun t => Triple.pure_pre fun hle => hle.elim
  intro g hg a e
  have h9 := (hg.times _).1 ⟨a, e⟩
  have := hs.times
  simp only at h9
  omega

/-- A section of the node. -/
theorem ninv_step {er : EndRead} {api : Api Val D O C I} {s s' : Sys Val D O} {ev : Ev Val D C I} {r : Outcome Unit}
    (hn : NInv cfg api.zero s p o) (h : nodeStep er api cfg ev s = some (r, s')) :
    (r = .ok () → ∃ p' o', NInv cfg api.zero s' p' o') ∧ (r ≠ .ok () → Good cfg s'.be) := by
  have hlift : ∀ {α : Type} {m : M (BE Val D O) α} {P : BE Val D O → Prop} {Q : α → BE Val D O → Prop} {b : BE Val D O},
      Triple P m Q (Good cfg) → P b → Triple (fun b' => b' = b) m Q (Good cfg) :=
    fun ht hb => ht.pre fun _ e => e ▸ hb
  unfold nodeStep at h
  cases ev with
  | initial msg =>
    simp only at h
    split at h
    · simp at h
    · rename_i hst
      have hst : s.started = false := by simpa using hst
      have ht := tGuarded (fun _ _ h => h) (fun _ _ _ h => h) (fun _ _ h => h) (tInitial (cfg := cfg) (z := api.zero) er api msg (hn.side0 hst))
      rcases sect_cases ht hn.graph h with ⟨rfl, a, b, hb, rfl⟩ | ⟨hr, hg⟩
      · exact ⟨fun _ => by have := ninv_after hn hb; exact this, fun h => absurd rfl h⟩
      · exact ⟨fun e => absurd e hr, fun _ => hg⟩
  | imu msg =>
    simp only at h
    split at h
    · simp only [Option.some.injEq, Prod.mk.injEq] at h
      obtain ⟨rfl, rfl⟩ := h
      exact ⟨fun e => by simp at e, fun _ => hn.graph.good⟩
    · cases hst : s.started with
      | false =>
        have h0 := imuWarn_before hn.graph (hn.side0 hst)
        unfold sectAfter at h
        rw [h0] at h
        simp only [Option.some.injEq, Prod.mk.injEq] at h
        obtain ⟨rfl, rfl⟩ := h
        exact ⟨fun e => by simp at e, fun _ => hn.graph.good⟩
      | true =>
        have hs := hn.side hst
        rcases sectAfter_cases (tImuWait (cfg := cfg) (z := api.zero) (p := p) (o := o))
          (fun b hb => hlift (tImu er api msg hs (hb.1 rfl).1) hb.2) hn.graph h with ⟨rfl, a, b, hb, rfl⟩ | ⟨hr, hg⟩
        · refine ⟨fun _ => ?_, fun h => absurd rfl h⟩
          have := ninv_after hn hb
          rw [← hst] at this
          exact this
        · exact ⟨fun e => absurd e hr, fun _ => hg⟩
  | reg msg =>
    simp only at h
    split at h
    · rename_i hr
      cases hst : s.started with
      | false =>
        have ht := tGuarded (fun _ _ h => h) (fun _ _ _ h => h) (fun _ _ h => h) (tRegistration0 (cfg := cfg) (z := api.zero) er api msg hr (hn.side0 hst))
        rcases sect_cases ht hn.graph h with ⟨rfl, a, b, hb, rfl⟩ | ⟨hr, hg⟩
        · exact hb.elim
        · exact ⟨fun e => absurd e hr, fun _ => hg⟩
      | true =>
        have ht := tGuarded (fun _ _ h => h) (fun _ _ _ h => h) (fun _ _ h => h) (tRegistration (cfg := cfg) (z := api.zero) er api msg hr (hn.side hst))
        rcases sect_cases ht hn.graph h with ⟨rfl, a, b, hb, rfl⟩ | ⟨hr, hg⟩
        · refine ⟨fun _ => ?_, fun h => absurd rfl h⟩
          have := ninv_after hn hb
          rw [← hst] at this
          exact this
        · exact ⟨fun e => absurd e hr, fun _ => hg⟩
    · simp at h
  | stereo msg =>
    simp only at h
    split at h
    · rename_i hc
      have hside : ∀ b : BE Val D O, ((false = false → p.t + 1 ≤ p.np ∧ 0 ≤ p.t + 1) ∧ At cfg (GSt cfg api.zero p) o b) →
          Side cfg p o ∧ s.started = true ∧ p.t + 1 ≤ p.i := by
        intro b hb
        have hb := hb.1 rfl
        cases hst : s.started with
        | false =>
          have h0 := hn.side0 hst
          have := h0.poses
          omega
        | true =>
          have hs := hn.side hst
          have := hs.poses
          exact ⟨hs, rfl, by omega⟩
      rcases sectAfter_cases (tStereoWait (cfg := cfg) (z := api.zero) (p := p) (o := o) hc)
        (Q := fun _ b => s.started = true ∧ After cfg api.zero p b)
        (fun b hb => (hlift (tStereo er api msg hc (hside b hb).1 (hside b hb).2.2) hb.2).conseq (fun _ h => h)
          (fun _ _ h => ⟨(hside b hb).2.1, h⟩) (fun _ h => h)) hn.graph h with ⟨rfl, a, b, hb, rfl⟩ | ⟨hr, hg⟩
      · refine ⟨fun _ => ?_, fun h => absurd rfl h⟩
        have := ninv_after hn hb.2
        rw [← hb.1] at this
        exact this
      · exact ⟨fun e => absurd e hr, fun _ => hg⟩
    · simp at h
  | baroStart =>
    simp only at h
    split at h
    · rename_i hc
      have hk := key_baro hn.graph.1 hc 0
      rw [hk] at h
      cases hb : s.baro with
      | some x => rw [hb] at h; simp at h
      | none =>
        rw [hb] at h
        simp only [Option.some.injEq, Prod.mk.injEq] at h
        obtain ⟨rfl, rfl⟩ := h
        refine ⟨fun _ => ⟨p, o, hn.graph, hn.side, hn.side0, ?_⟩, fun h => absurd rfl h⟩
        have := hn.baro
        rw [hb] at this
        simp only [Int.add_zero]
        exact ⟨hc, le_refl _, this⟩
    · simp at h
  | baroPoll stamp =>
    simp only at h
    cases hb : s.baro with
    | none => rw [hb] at h; simp at h
    | some next =>
      rw [hb] at h
      simp only [Option.isSome_some, if_true] at h
      have hba := hn.baro
      rw [hb] at hba
      rcases sect_cases (tBaroWait hba.1 stamp p) hn.graph h with ⟨rfl, a, b, ⟨b', h1, _, h3⟩, rfl⟩ | ⟨hr, hg⟩
      · refine ⟨fun _ => ⟨_, o, h3, ?_, ?_, ?_⟩, fun h => absurd rfl h⟩
        · intro hst
          have := hn.side hst
          exact ⟨this.1, this.2, this.3, this.4, this.5, this.6, this.7, this.8⟩
        · intro hst
          have := hn.side0 hst
          exact ⟨this.1, this.2, this.3, this.4, this.5, this.6, this.7, this.8⟩
        · simp only [id, hb]
          exact ⟨hba.1, by have := hba.2.1; omega, hba.2.2⟩
      · exact ⟨fun e => absurd e hr, fun _ => hg⟩
  | baroFinish msg =>
    simp only at h
    cases hb : s.baro with
    | none => rw [hb] at h; simp at h
    | some next =>
      rw [hb] at h
      simp only at h
      have hba := hn.baro
      rw [hb] at hba
      rcases sectAfter_cases (tBaroWait hba.1 msg.stamp p)
        (Q := fun _ b => ∃ b' ba, BaroSide (b' + 1) ba ∧ At cfg (GSt cfg api.zero { p with b := b' + 1, ba := ba }) o b)
        (fun b hw => by
          obtain ⟨b', h1, h2, h3⟩ := hw
          refine (hlift (tBaroBody (p := { p with b := b' }) api cfg hba.1 msg next hba.2.2
            (by have := hba.2.1; simp only; omega)) h3).conseq (fun _ h => h) (fun _ _ h => ?_) (fun _ h => h)
          obtain ⟨ba, h4, h5⟩ := h
          exact ⟨b', ba, h4, h5⟩) hn.graph h with ⟨rfl, a, b, ⟨b', ba, h1, h2⟩, rfl⟩ | ⟨hr, hg⟩
      · refine ⟨fun _ => ⟨_, o, h2, ?_, ?_, h1⟩, fun h => absurd rfl h⟩
        · intro hst
          have := hn.side hst
          exact ⟨this.1, this.2, this.3, this.4, this.5, this.6, this.7, this.8⟩
        · intro hst
          have := hn.side0 hst
          exact ⟨this.1, this.2, this.3, this.4, this.5, this.6, this.7, this.8⟩
      · exact ⟨fun e => absurd e hr, fun _ => hg⟩

/-- The invariant of reachable states. -/
theorem nodeReach_inv {er : EndRead} {api : Api Val D O C I} {o0 : O} {s : Sys Val D O}
    (h : NodeReach er api cfg o0 s) : ∃ p o, NInv cfg api.zero s p o := by
  induction h with
  | init hb =>
    obtain ⟨h1, h2, h3⟩ := construct_ok hb
    refine ⟨⟨0, 0, -1, 0, -1, -1, 0, 0, ⟨0, 1, 0, none, none⟩⟩, -1,
      ⟨gst_init cfg _ _ (by rw [h1]), h2, ⟨by rw [h3]; rfl, by rw [h3]; simp, by rw [h3]; simp, by rw [h3]; simp, by rw [h3]; simp⟩⟩, by simp, fun _ => ⟨rfl, rfl, rfl, rfl, rfl, rfl, rfl, rfl⟩, ?_⟩
    exact ⟨le_refl _, rfl, rfl, rfl, rfl, by simp⟩
  | step _ hs ih =>
    obtain ⟨p, o, hn⟩ := ih
    exact (ninv_step hn hs).1 rfl

theorem nodeSeen_good {er : EndRead} {api : Api Val D O C I} {o0 : O} {s : Sys Val D O}
    (h : NodeSeen er api cfg o0 s) : Good cfg s.be := by
  cases h with
  | reach h =>
    obtain ⟨p, o, hn⟩ := nodeReach_inv h
    exact hn.graph.good
  | last h hs =>
    obtain ⟨p, o, hn⟩ := nodeReach_inv h
    rename_i r
    by_cases hr : r = .ok ()
    · obtain ⟨p', o', hn'⟩ := (ninv_step hn hs).1 hr
      exact hn'.graph.good
    · exact (ninv_step hn hs).2 hr

end BackEnd

end Serpent
