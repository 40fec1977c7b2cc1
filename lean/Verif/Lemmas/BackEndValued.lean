import Verif.Lemmas.BackEndSched

/-!
# All variables of the factors of the back end have values
-/

namespace Serpent

namespace BackEnd

open Graph M

variable {Val D O C I : Type}

/-- All variables of all factors have values, except those that `E` allows. Stereo factors are between a pose and a landmark, and
there is a camera. -/
structure FV (E : Factor D → Key → Prop) (g : GM Val D) : Prop where
  vinv : VInv g
  sorted : g.factors.Sorted
  vals : ∀ k, ∀ f ∈ factorsAt g k, ∀ raw ∈ f.vars, g.values.contains raw = true ∨ E f raw
  stereo : ∀ k, ∀ f ∈ factorsAt g k, f.kind = .stereo → g.calib.isSome = true ∧ g.extrinsicSet = true ∧
    ∃ j id x l, sym .X j = .ok x ∧ sym .S id = .ok l ∧ f.vars = [x, l]

/-- No exceptions. -/
def No : Factor D → Key → Prop := fun _ _ => False

/-- These variables have values. -/
def Has (L : List (Fam × Int)) (g : GM Val D) : Prop :=
  ∀ e ∈ L, ∃ raw, sym e.1 e.2 = .ok raw ∧ g.values.contains raw = true

/-- What is known between two statements of a callback. -/
structure FA (E : Factor D → Key → Prop) (ks : OMap String (Int × Nat)) (L : List (Fam × Int)) (g : GM Val D) : Prop where
  fv : FV E g
  keys : g.keys = ks
  has : Has L g

/-- Only values were added, or things that do not matter here. -/
structure Grow (g0 g : GM Val D) : Prop where
  keys : g.keys = g0.keys
  facs : g.factors = g0.factors
  calib : g.calib = g0.calib
  ext : g.extrinsicSet = g0.extrinsicSet
  vinv : VInv g
  dom : ∀ raw, g0.values.contains raw = true → g.values.contains raw = true

theorem Grow.refl {g : GM Val D} (h : VInv g) : Grow g g := ⟨rfl, rfl, rfl, rfl, h, fun _ h => h⟩

theorem Grow.has {g0 g : GM Val D} (h : Grow g0 g) {L : List (Fam × Int)} (hl : Has L g0) : Has L g := fun e he => by
  obtain ⟨raw, h1, h2⟩ := hl e he
  exact ⟨raw, h1, h.dom raw h2⟩

theorem Grow.fv {g0 g : GM Val D} (h : Grow g0 g) {E : Factor D → Key → Prop} (hf : FV E g0) : FV E g := by
  have e : ∀ k, factorsAt g k = factorsAt g0 k := fun k => by unfold factorsAt; rw [h.facs]
  refine ⟨h.vinv, h.facs ▸ hf.sorted, fun k f hm raw hr => ?_, fun k f hm hk => ?_⟩
  · rw [e] at hm
    exact (hf.vals k f hm raw hr).imp (h.dom raw) id
  · rw [e] at hm
    rw [h.calib, h.ext]
    exact hf.stereo k f hm hk

theorem Grow.fa {g0 g : GM Val D} (h : Grow g0 g) {E : Factor D → Key → Prop} {ks : OMap String (Int × Nat)}
    {L : List (Fam × Int)} (hf : FA E ks L g0) : FA E ks L g := ⟨h.fv hf.fv, h.keys.trans hf.keys, h.has hf.has⟩

theorem keeps_fa {α : Type} {m : M (GM Val D) α} (h : ∀ g0, Keeps (Grow g0) m) (E : Factor D → Key → Prop)
    (ks : OMap String (Int × Nat)) (L : List (Fam × Int)) : Keeps (FA E ks L) m := fun g hg =>
  (h g g (Grow.refl hg.fv.vinv)).fa hg

theorem keeps_grow_set (g0 : GM Val D) (c : Fam) (k : Int) (v : Val) : Keeps (Grow g0) (set (D := D) c k v) := by
  intro g h
  cases hk : sym c k with
  | ub => exact absurd hk (sym_ne_ub _ _)
  | throws => rw [set_throws g hk]; exact h
  | ok raw =>
    rw [set_ok h.vinv hk]
    refine ⟨h.keys, h.facs, h.calib, h.ext, vinv_setState h.vinv hk _ _, fun r hr => ?_⟩
    simp only [setState]
    rw [contains_assign h.vinv.values, h.dom r hr, Bool.or_true]

theorem keeps_grow_update (g0 : GM Val D) (raw : Key) (v : Val) : Keeps (Grow g0) (update (D := D) raw v) := by
  intro g h
  rw [update_run]
  split
  · rename_i hc
    refine ⟨h.keys, h.facs, h.calib, h.ext, vinv_updateState h.vinv hc v, fun r hr => ?_⟩
    simp only [updateState]
    rw [contains_assign h.vinv.values, h.dom r hr, Bool.or_true]
  · exact h

theorem keeps_grow_optimise (g0 : GM Val D) (er : EndRead) (api : OptApi Val D O) (k : Int) :
    Keeps (fun s : Isam Val D O => Grow g0 s.gm) (optimise er api k) := by
  have hon : ∀ {α : Type} {m : M (GM Val D) α}, Keeps (Grow g0) m → Keeps (fun s : Isam Val D O => Grow g0 s.gm) (onGm m) :=
    fun hm s hs => hm _ hs
  have h1 : Keeps (Grow g0) (extractNewFactors (Val := Val) (D := D) k) := fun g h =>
    ⟨h.keys, h.facs, h.calib, h.ext, vinv_indep_factors _ _ _ h.vinv, h.dom⟩
  have h2 : Keeps (Grow g0) (extractNewValues (Val := Val) (D := D) er k) := fun g h => by
    have hv := keeps_vinv_extractNewValues er k g h.vinv
    rcases extractNewValues_frame er k g with ⟨n, l, e⟩
    rw [e] at hv ⊢
    exact ⟨h.keys, h.facs, h.calib, h.ext, hv, h.dom⟩
  unfold optimise
  refine Keeps.bind (hon h1) fun fs => ?_
  refine Keeps.bind (hon h2) fun vs => ?_
  refine Keeps.bind Keeps.get fun s => Keeps.bind (Keeps.lift _) fun o => ?_
  refine Keeps.bind (Keeps.modify fun s h => h) fun _ => Keeps.bind (Keeps.modify fun s h => h) fun _ => ?_
  refine Keeps.bind (hon (keeps_updateFromValues' (fun raw v => keeps_grow_update g0 raw v) _)) fun _ => ?_
  refine Keeps.bind Keeps.get fun s => Keeps.ite ?_ (Keeps.pure _)
  unfold marginalise
  refine Keeps.bind Keeps.get fun s => Keeps.ite Keeps.throw ?_
  refine Keeps.bind (hon fun g h => ?_) fun ks => ?_
  · exact ⟨h.keys, h.facs, h.calib, h.ext, ⟨h.vinv.1, h.vinv.2, h.vinv.3, h.vinv.4⟩, h.dom⟩
  refine Keeps.bind (Keeps.modify fun s h => h) fun _ => Keeps.bind Keeps.get fun _ => Keeps.bind (Keeps.lift _) fun _ => ?_
  exact Keeps.modify fun s h => h

/-! ### Methods of the graph manager -/

variable {E : Factor D → Key → Prop} {ks : OMap String (Int × Nat)} {L : List (Fam × Int)}

theorem fa_set (c : Fam) (k : Int) (v : Val) {g g' : GM Val D} {a : Unit} (h : FA E ks L g) (e : set c k v g = (.ok a, g')) :
    FA E ks ((c, k) :: L) g' := by
  have hg := keeps_fa (fun g0 => keeps_grow_set g0 c k v) E ks L g h
  rw [e] at hg
  refine ⟨hg.fv, hg.keys, fun x hx => ?_⟩
  rcases List.mem_cons.1 hx with rfl | hx
  · cases hk : sym c k with
    | ub => exact absurd hk (sym_ne_ub _ _)
    | throws => rw [set_throws g hk] at e; cases e
    | ok raw =>
      rw [set_ok h.fv.vinv hk] at e
      obtain ⟨-, rfl⟩ := Prod.mk.injEq _ _ _ _ ▸ e
      refine ⟨raw, rfl, ?_⟩
      simp only [setState]
      rw [contains_assign h.fv.vinv.values]
      simp
  · exact hg.has x hx

theorem has_getVal {c : Fam} {k : Int} {g : GM Val D} {v : Val} (e : getVal g c k = .ok v) :
    ∃ raw, sym c k = .ok raw ∧ g.values.contains raw = true := by
  unfold getVal at e
  cases hk : sym c k with
  | ub => rw [hk] at e; cases e
  | throws => rw [hk] at e; cases e
  | ok raw =>
    rw [hk, Outcome.bind_ok] at e
    refine ⟨raw, rfl, contains_iff.2 ?_⟩
    cases hf : g.values.find raw with
    | none => rw [hf] at e; cases e
    | some v => exact ⟨v, rfl⟩

theorem syms_mem : ∀ {l : List (Fam × Int)} {vars : List Key}, syms l = .ok vars → ∀ raw ∈ vars, ∃ e ∈ l, sym e.1 e.2 = .ok raw
  | [], vars, h, raw, hr => by cases h; cases hr
  | (c, j) :: l, vars, h, raw, hr => by
    unfold syms at h
    cases hk : sym c j with
    | ub => rw [hk] at h; cases h
    | throws => rw [hk] at h; cases h
    | ok r =>
      rw [hk, Outcome.bind_ok] at h
      cases hs : syms l with
      | ub => rw [hs] at h; cases h
      | throws => rw [hs] at h; cases h
      | ok rs =>
        rw [hs, Outcome.bind_ok] at h
        cases h
        rcases List.mem_cons.1 hr with rfl | hr
        · exact ⟨_, List.mem_cons_self, hk⟩
        · obtain ⟨e, he, h'⟩ := syms_mem hs raw hr
          exact ⟨e, List.mem_cons_of_mem _ he, h'⟩

theorem fa_add {g : GM Val D} (h : FA E ks L g) (k : Int) (f : Factor D)
    (hv : ∀ raw ∈ f.vars, g.values.contains raw = true ∨ E f raw)
    (hs : f.kind = .stereo → g.calib.isSome = true ∧ g.extrinsicSet = true ∧
      ∃ j id x l, sym .X j = .ok x ∧ sym .S id = .ok l ∧ f.vars = [x, l]) : FA E ks L (addFactor k f g).2 := by
  refine ⟨⟨vinv_indep_factors _ _ _ h.fv.vinv, OMap.sorted_alter h.fv.sorted _ _, fun j x hx => ?_, fun j x hx => ?_⟩, h.keys, h.has⟩
  · rw [factorsAt_add h.fv.sorted] at hx
    rcases List.mem_append.1 hx with hx | hx
    · exact h.fv.vals j x hx
    · split at hx
      · rw [List.mem_singleton] at hx; subst hx; exact hv
      · cases hx
  · rw [factorsAt_add h.fv.sorted] at hx
    rcases List.mem_append.1 hx with hx | hx
    · exact h.fv.stereo j x hx
    · split at hx
      · rw [List.mem_singleton] at hx; subst hx; exact hs
      · cases hx

theorem fa_create {q : PlainKind} {k : Int} {d : D} {g g' : GM Val D} {a : Unit} (h : FA E ks L g)
    (hv : ∀ e ∈ factorVars q k, e ∈ L ∨ ∀ (f : Factor D) raw, f.kind = .plain q → sym e.1 e.2 = .ok raw → E f raw)
    (e : createFactor q k d g = (.ok a, g')) : FA E ks L g' := by
  unfold createFactor at e
  cases hs : syms (factorVars q k) with
  | ub => rw [hs] at e; cases e
  | throws => rw [hs] at e; cases e
  | ok vars =>
    rw [hs, lift_ok_bind] at e
    have := fa_add h k { kind := .plain q, vars := vars, meas := d } (fun raw hr => ?_) (fun hk => by cases hk)
    · rw [e] at this
      exact this
    · obtain ⟨x, hx, hsym⟩ := syms_mem hs raw hr
      rcases hv x hx with hL | hE
      · obtain ⟨raw', h1, h2⟩ := h.has x hL
        rw [hsym] at h1
        cases h1
        exact Or.inl h2
      · exact Or.inr (hE _ raw rfl hsym)

/-- The key with a name. -/
def keyAt (ks : OMap String (Int × Nat)) (name : String) (off : Int) : Outcome Int :=
  match ks.find name with
  | some (k, _) => .ok (k + off)
  | none => .throws

theorem keyAt_sub {ks : OMap String (Int × Nat)} {name : String} {a b : Int} (h0 : keyAt ks name 0 = .ok a)
    (h1 : keyAt ks name (-1) = .ok b) : b = a - 1 := by
  unfold keyAt at h0 h1
  cases hf : ks.find name with
  | none => rw [hf] at h0; cases h0
  | some e =>
    rw [hf] at h0 h1
    have h0 := Outcome.ok.inj h0
    have h1 := Outcome.ok.inj h1
    omega

/-- The keys after `increment`. -/
def incKeys (ks : OMap String (Int × Nat)) (name : String) : OMap String (Int × Nat) :=
  match ks.find name with
  | some (k, p) => ks.assign name (k + 1, p)
  | none => ks

theorem fa_inc {name : String} {g g' : GM Val D} {a : Unit} (h : FA E ks L g) (e : increment name g = (.ok a, g')) :
    FA E (incKeys ks name) L g' := by
  obtain ⟨hf, rfl, hh⟩ := h
  unfold increment at e
  unfold incKeys
  split at e
  · rename_i k p hk
    obtain ⟨-, rfl⟩ := Prod.mk.injEq _ _ _ _ ▸ e
    exact ⟨⟨⟨hf.vinv.1, hf.vinv.2, hf.vinv.3, hf.vinv.4⟩, hf.sorted, hf.vals, hf.stereo⟩, by rw [hk], hh⟩
  · cases e

/-! ### Statements of callbacks -/

/-- At every call of `optimise` all variables of all factors had values. -/
def CallsV (s : BE Val D O) : Prop := ∀ c ∈ s.calls, FV No c.2

/-- The graph satisfies `A`. -/
def Av (A : GM Val D → Prop) (s : BE Val D O) : Prop := A s.isam.gm ∧ CallsV s

variable {A : GM Val D → Prop}

theorem av_pub : IndepPub (Av (O := O) A) := fun _ _ h => h

theorem vOnG {α : Type} {m : M (GM Val D) α} {B : α → GM Val D → Prop} (h : ∀ g, A g → ∀ a g', m g = (.ok a, g') → B a g') :
    Triple (Av (O := O) A) (onG m) (fun a => Av (B a)) CallsV := by
  intro s ⟨hA, hc⟩
  simp only [onG, onIsam, onGm]
  rcases hr : m s.isam.gm with ⟨x, g'⟩
  cases x with
  | ok a => exact ⟨h _ hA a g' hr, hc⟩
  | throws => exact hc
  | ub => exact hc

theorem vOnG_keeps {α : Type} {m : M (GM Val D) α} (h : Keeps A m) :
    Triple (Av (O := O) A) (onG m) (fun _ => Av A) CallsV :=
  vOnG fun g hg a g' hr => by have := h g hg; rw [hr] at this; exact this

theorem vRead {α : Type} {f : GM Val D → Outcome α} {B : α → GM Val D → Prop} (h : ∀ g, A g → ∀ a, f g = .ok a → B a g) :
    Triple (Av (O := O) A) (read f) (fun a => Av (B a)) CallsV := by
  intro s hs
  simp only [read]
  cases hf : f s.isam.gm with
  | ok a => exact ⟨h _ hs.1 a hf, hs.2⟩
  | throws => exact hs.2
  | ub => exact hs.2

theorem vRead' {α : Type} {f : GM Val D → Outcome α} : Triple (Av (O := O) A) (read f) (fun _ => Av A) CallsV :=
  vRead fun _ h _ _ => h

theorem vKeeps {α : Type} {m : M (BE Val D O) α} (h : Keeps (Av A) m) : Triple (Av (O := O) A) m (fun _ => Av A) CallsV :=
  (Triple.of_keeps h).conseq (fun _ h => h) (fun _ _ h => h) (fun _ h => h.2)

theorem vThrow {α : Type} {Q : α → BE Val D O → Prop} : Triple (Av (O := O) A) (M.throw : M (BE Val D O) α) Q CallsV :=
  Triple.throw fun _ h => h.2

/-- Reading a key. -/
theorem vKey (name : String) (off : Int) : Triple (Av (O := O) (FA (Val := Val) E ks L)) (read fun g => key g name off)
    (fun k s => keyAt ks name off = .ok k ∧ Av (FA E ks L) s) CallsV := by
  intro s hs
  simp only [read]
  cases hf : key s.isam.gm name off with
  | ok a =>
    refine ⟨?_, hs⟩
    rw [← hs.1.keys]
    exact hf
  | throws => exact hs.2
  | ub => exact hs.2

/-- Reading a value. -/
theorem vGet (c : Fam) (k : Int) : Triple (Av (O := O) (FA (Val := Val) E ks L)) (read fun g => getVal g c k)
    (fun _ => Av (FA E ks ((c, k) :: L))) CallsV :=
  vRead fun g hg a e => ⟨hg.fv, hg.keys, fun x hx => by
    rcases List.mem_cons.1 hx with rfl | hx
    · exact has_getVal e
    · exact hg.has x hx⟩

theorem vSet (c : Fam) (k : Int) (v : Val) : Triple (Av (O := O) (FA E ks L)) (onG (set c k v))
    (fun _ => Av (FA E ks ((c, k) :: L))) CallsV := vOnG fun _ hg _ _ e => fa_set c k v hg e

theorem vInc (name : String) : Triple (Av (Val := Val) (O := O) (FA E ks L)) (onG (increment name))
    (fun _ => Av (FA E (incKeys ks name) L)) CallsV := vOnG fun _ hg _ _ e => fa_inc hg e

theorem vCreate {q : PlainKind} {k : Int} (d : D)
    (hv : ∀ e ∈ factorVars q k, e ∈ L ∨ ∀ (f : Factor D) raw, f.kind = .plain q → sym e.1 e.2 = .ok raw → E f raw) :
    Triple (Av (Val := Val) (O := O) (FA E ks L)) (onG (createFactor q k d)) (fun _ => Av (FA E ks L)) CallsV :=
  vOnG fun _ hg _ _ e => fa_create hg hv e

theorem vTimestamp (k t : Int) : Triple (Av (Val := Val) (O := O) (FA E ks L)) (onG (setTimestamp k t)) (fun _ => Av (FA E ks L)) CallsV :=
  vOnG_keeps fun _ h => ⟨⟨⟨h.fv.vinv.1, h.fv.vinv.2, h.fv.vinv.3, h.fv.vinv.4⟩, h.fv.sorted, h.fv.vals, h.fv.stereo⟩, h.keys, h.has⟩

theorem vOptimise (er : EndRead) (api : Api Val D O C I) (k : Int) :
    Triple (Av (O := O) (FA No ks L)) (optimiseB er api k) (fun _ => Av (FA No ks L)) CallsV := by
  intro s ⟨hA, hc⟩
  have hg := keeps_grow_optimise s.isam.gm er api.opt k s.isam (Grow.refl hA.fv.vinv)
  have hc' : ∀ c ∈ s.calls ++ [(k, s.isam.gm)], FV No c.2 := by
    intro c hm
    rcases List.mem_append.1 hm with hm | hm
    · exact hc c hm
    · rw [List.mem_singleton] at hm; subst hm; exact hA.fv
  rcases hr : optimise er api.opt k s.isam with ⟨x, i'⟩
  rw [hr] at hg
  simp only [optimiseB, modify_bind]
  rw [bind_run]
  simp only [onIsam, hr]
  cases x with
  | ok a =>
    simp only
    rw [bind_run]
    simp only [read]
    cases ht : timestamp i'.gm k with
    | ok t => exact ⟨hg.fa hA, hc'⟩
    | throws => exact hc'
    | ub => exact hc'
  | throws => exact hc'
  | ub => exact hc'

theorem vPublish (api : Api Val D O C I) (cfg' : Cfg) (k : Int) :
    Triple (Av (O := O) A) (publish api cfg' k) (fun _ => Av A) CallsV := vKeeps (keeps_publish av_pub api cfg' k)

theorem vWeaken {L' : List (Fam × Int)} {ks' : OMap String (Int × Nat)} (hk : ks' = ks) (hl : L' ⊆ L) {s : BE Val D O}
    (h : Av (FA E ks L) s) : Av (FA E ks' L') s := by
  subst hk
  exact ⟨⟨h.1.fv, h.1.keys, fun e he => h.1.has e (hl he)⟩, h.2⟩

theorem vUpdateVelocity (api : Api Val D O C I) (name : String) :
    Triple (Av (O := O) (FA E ks L)) (updateVelocity api name) (fun _ => Av (FA E ks L)) CallsV := by
  unfold updateVelocity
  refine Triple.bind vRead' fun k1 => Triple.bind vRead' fun p1 => Triple.bind vRead' fun k => Triple.bind vRead' fun p =>
    Triple.bind vRead' fun dt => ?_
  exact (vSet .V _ _).conseq (fun _ h => h) (fun _ s h => vWeaken rfl (List.subset_cons_self _ _) h) (fun _ h => h)

/-- What is known between two sections. -/
def Between (s : BE Val D O) : Prop := ∃ ks, Av (FA No ks []) s

theorem between_of {s : BE Val D O} (h : Av (FA No ks L) s) : Between s := ⟨ks, vWeaken rfl (List.nil_subset _) h⟩

/-! ### Sections -/

theorem vRegistration (er : EndRead) (api : Api Val D O C I) (cfg : Cfg) (msg : RegMsg D C) :
    Triple (Av (O := O) (FA No ks L)) (registrationBody er api cfg msg) (fun _ => Between) CallsV := by
  unfold registrationBody addRegistrationFactor
  refine Triple.bind (Q := fun _ s => ∃ L', Av (FA No (incKeys ks "reg") L') s) ?_ fun _ => ?_
  · refine Triple.bind (vInc _) fun _ => Triple.bind (vKey _ _) fun k => Triple.pure_pre fun hk => Triple.bind vRead' fun t => ?_
    refine Triple.ite (fun _ => vThrow) fun _ => Triple.ite (fun _ => vThrow) fun _ => Triple.ite (fun _ => vThrow) fun _ => ?_
    refine Triple.bind (vKey _ _) fun k1 => Triple.pure_pre fun hk1 => ?_
    have e := keyAt_sub hk hk1
    subst e
    refine Triple.bind (vGet _ _) fun p => Triple.bind (vSet _ _ _) fun _ => ?_
    exact (vCreate _ (by simp [factorVars])).conseq (fun _ h => h) (fun _ s h => ⟨_, h⟩) (fun _ h => h)
  · intro s ⟨L', h⟩
    revert s
    suffices H : Triple (Av (O := O) (FA No (incKeys ks "reg") L')) _ (fun _ => Between) CallsV from fun s h => H s h
    refine Triple.bind vRead' fun k => Triple.bind vRead' fun m => Triple.ite (fun _ => ?_) fun _ => Triple.pure fun s h => between_of h
    refine Triple.bind (vOptimise er api _) fun _ => ?_
    refine Triple.bind (tBranch (fun _ => Triple.pure fun _ h => h) fun _ => vUpdateVelocity api "reg") fun _ => ?_
    exact (vPublish api cfg _).conseq (fun _ h => h) (fun _ s h => between_of h) (fun _ h => h)

theorem vOptimiseAndPublish (er : EndRead) (api : Api Val D O C I) (cfg : Cfg) (k : Int) :
    Triple (Av (O := O) (FA No ks L)) (optimiseAndPublish er api cfg k) (fun _ => Av (FA No ks L)) CallsV :=
  Triple.bind (vOptimise er api k) fun _ => vPublish api cfg k

theorem vInitial (er : EndRead) (api : Api Val D O C I) (cfg : Cfg) (msg : OdomMsg Val C) :
    Triple (Av (O := O) (FA No ks L)) (initialBody er api cfg msg) (fun _ => Between) CallsV := by
  unfold initialBody
  refine Triple.bind (vSet _ _ _) fun _ => Triple.bind (vSet _ _ _) fun _ => Triple.bind (vTimestamp _ _) fun _ =>
    Triple.bind (vSet _ _ _) fun _ => Triple.ite (fun _ => vThrow) fun _ => Triple.bind vRead' fun p => ?_
  refine Triple.bind (vCreate _ (by simp [factorVars])) fun _ => ?_
  refine Triple.bind (Q := fun _ => Av (FA No ks ((.V, 0) :: (.X, 0) :: (.B, 0) :: L)))
    (tBranch (fun _ => ?_) fun _ => Triple.pure fun _ h => h) fun _ => ?_
  · refine Triple.ite (fun _ => vThrow) fun _ => Triple.bind vRead' fun v => Triple.bind (vCreate _ (by simp [factorVars])) fun _ => ?_
    refine Triple.ite (fun _ => vThrow) fun _ => Triple.ite (fun _ => vThrow) fun _ => Triple.bind vRead' fun b => ?_
    exact vCreate _ (by simp [factorVars])
  · refine Triple.bind (vKeeps (keeps_emit av_pub _)) fun _ => ?_
    exact (vOptimiseAndPublish er api cfg 0).conseq (fun _ h => h) (fun _ s h => between_of h) (fun _ h => h)

theorem vImu (er : EndRead) (api : Api Val D O C I) (cfg : Cfg) (msg : ImuMsg I) :
    Triple (Av (O := O) (FA No ks L)) (imuBody er api cfg msg) (fun _ => Between) CallsV := by
  unfold imuBody
  refine Triple.bind vRead' fun k0 => Triple.bind vRead' fun b0 => ?_
  refine Triple.bind (Q := fun _ => Av (FA No ks L)) (Triple.lift fun s h => ?_) fun pre => ?_
  · cases api.preintegrate b0 msg <;> first | exact h | exact h.2
  refine Triple.bind (vInc _) fun _ => Triple.bind (vKey _ _) fun k1 => Triple.pure_pre fun hk1 => ?_
  refine Triple.bind (vGet _ _) fun b1 => Triple.bind (vKey _ _) fun k => Triple.pure_pre fun hk => ?_
  have e := keyAt_sub hk hk1
  subst e
  refine Triple.bind (vSet _ _ _) fun _ => ?_
  refine Triple.bind (Q := fun _ => Av (FA No (incKeys ks "imu") ((.X, k - 1) :: (.V, k - 1) :: (.B, k) :: (.B, k - 1) :: L)))
    (vRead fun g hg nav e => ?_) fun nav => ?_
  · unfold navstate pose velocity at e
    cases hp : getVal g .X (k - 1) with
    | ub => rw [hp] at e; cases e
    | throws => rw [hp] at e; cases e
    | ok p =>
      cases hv : getVal g .V (k - 1) with
      | ub => rw [hp, hv] at e; cases e
      | throws => rw [hp, hv] at e; cases e
      | ok v =>
        refine ⟨hg.fv, hg.keys, fun x hx => ?_⟩
        rcases List.mem_cons.1 hx with rfl | hx
        · exact has_getVal hp
        · rcases List.mem_cons.1 hx with rfl | hx
          · exact has_getVal hv
          · exact hg.has x hx
  refine Triple.bind vRead' fun b2 => ?_
  refine Triple.bind (Q := fun _ => Av (FA No (incKeys ks "imu") ((.V, k) :: (.X, k) :: (.X, k - 1) :: (.V, k - 1) :: (.B, k) ::
    (.B, k - 1) :: L))) (vOnG fun g hg a g' e => ?_) fun _ => ?_
  · unfold setNavstate at e
    rw [bind_run] at e
    rcases hr : set .X k (api.predict nav.1 nav.2 b2 pre).1 g with ⟨x, g1⟩
    rw [hr] at e
    cases x with
    | ub => cases e
    | throws => cases e
    | ok u => exact fa_set _ _ _ (fa_set _ _ _ hg hr) e
  refine Triple.bind (vTimestamp _ _) fun _ => Triple.bind vRead' fun p => Triple.ite (fun _ => vThrow) fun _ =>
    Triple.bind vRead' fun v => Triple.ite (fun _ => vThrow) fun _ => Triple.bind vRead' fun p1 => Triple.bind vRead' fun t =>
    Triple.bind (vKeeps (keeps_emit av_pub _)) fun _ => ?_
  refine Triple.ite (fun _ => ?_) fun _ => Triple.pure fun s h => between_of h
  refine Triple.bind (vCreate _ (by simp [factorVars])) fun _ => Triple.bind vRead' fun m => ?_
  refine Triple.ite (fun _ => ?_) fun _ => Triple.pure fun s h => between_of h
  exact (vOptimiseAndPublish er api cfg k).conseq (fun _ h => h) (fun _ s h => between_of h) (fun _ h => h)

/-! ### Stereo -/

/-- The landmark of a feature that was just attached to the previous pose has no value yet. -/
def Pending (id : Int) : Factor D → Key → Prop := fun _ raw => sym .S id = .ok raw

theorem fa_mono {E' : Factor D → Key → Prop} {g : GM Val D} (h : FA E ks L g) (he : ∀ f raw, E f raw → E' f raw) : FA E' ks L g :=
  ⟨⟨h.fv.vinv, h.fv.sorted, fun k f hf raw hr => (h.fv.vals k f hf raw hr).imp id (he f raw), h.fv.stereo⟩, h.keys, h.has⟩

theorem fa_settle {id : Int} {g : GM Val D} (h : FA (Pending id) ks ((.S, id) :: L) g) : FA No ks ((.S, id) :: L) g := by
  refine ⟨⟨h.fv.vinv, h.fv.sorted, fun k f hf raw hr => Or.inl ?_, h.fv.stereo⟩, h.keys, h.has⟩
  rcases h.fv.vals k f hf raw hr with hc | he
  · exact hc
  · obtain ⟨raw', h1, h2⟩ := h.has _ List.mem_cons_self
    have : sym .S id = .ok raw := he
    rw [this] at h1
    cases h1
    exact h2

/-- A camera is known. -/
def Cam (g : GM Val D) : Prop := g.calib.isSome = true ∧ g.extrinsicSet = true

/-- The graph while the factors of one frame are made. -/
def FC (E : Factor D → Key → Prop) (ks : OMap String (Int × Nat)) (L : List (Fam × Int)) (g : GM Val D) : Prop :=
  FA E ks L g ∧ Cam g

theorem fc_push {k i id : Int} {d : D} {g g' : GM Val D} {a : Unit} (h : FC E ks L g)
    (hx : ∀ raw, sym .X i = .ok raw → g.values.contains raw = true)
    (hl : ∀ (f : Factor D) raw, sym .S id = .ok raw → g.values.contains raw = true ∨ E f raw)
    (e : pushStereo k i id d g = (.ok a, g')) : FC E ks L g' := by
  unfold pushStereo at e
  cases h1 : sym .X i with
  | ub => rw [h1] at e; cases e
  | throws => rw [h1] at e; cases e
  | ok x =>
    rw [h1, lift_ok_bind] at e
    cases h2 : sym .S id with
    | ub => rw [h2] at e; cases e
    | throws => rw [h2] at e; cases e
    | ok l =>
      rw [h2, lift_ok_bind] at e
      have := fa_add h.1 k { kind := .stereo, vars := [x, l], meas := d } (fun raw hr => ?_)
        (fun _ => ⟨h.2.1, h.2.2, i, id, x, l, h1, h2, rfl⟩)
      · rw [e] at this
        have ec : Cam (addFactor k ({ kind := .stereo, vars := [x, l], meas := d } : Factor D) g).2 := h.2
        rw [e] at ec
        exact ⟨this, ec⟩
      · simp only [List.mem_cons, List.not_mem_nil, or_false] at hr
        rcases hr with rfl | rfl
        · exact Or.inl (hx _ h1)
        · exact hl _ _ h2

theorem fc_ids {g : GM Val D} (h : FC E ks L g) (a b c) :
    FC E ks L { g with features := a, landmarkIds := b, newLandmarkIds := c } :=
  ⟨⟨⟨vinv_indep_stereo _ _ _ _ h.1.fv.vinv, h.1.fv.sorted, h.1.fv.vals, h.1.fv.stereo⟩, h.1.keys, h.1.has⟩, h.2⟩

theorem triv {α : Type} {P : GM Val D → Prop} {m : M (GM Val D) α} {Q : α → GM Val D → Prop}
    (h : ∀ g, P g → ∀ a g', m g = (.ok a, g') → Q a g') : Triple P m Q (fun _ => True) := by
  intro g hg
  rcases hr : m g with ⟨x, g'⟩
  cases x with
  | ok a => exact h g hg a g' hr
  | throws => trivial
  | ub => trivial

theorem sFirst {k id : Int} {d : D} (hp : ∀ raw, sym .X (k - 1) = .ok raw → (Fam.X, k - 1) ∈ L) :
    Triple (FC (Val := Val) No ks L) (stereoFirst k id d) (fun _ => FC (Pending id) ks L) (fun _ => True) := by
  unfold stereoFirst
  refine Triple.bind (Q := fun _ => FC (Pending id) ks L) (triv fun g hg a g' e => ?_) fun _ => ?_
  · refine fc_push ⟨fa_mono hg.1 fun _ _ h => h.elim, hg.2⟩ (fun raw hr => ?_) (fun _ _ h => Or.inr h) e
    obtain ⟨raw', h1, h2⟩ := hg.1.has _ (hp raw hr)
    rw [hr] at h1
    cases h1
    exact h2
  · refine Triple.bind (Q := fun _ => FC (Pending id) ks L) (Triple.modify fun s h => ?_) fun _ => Triple.modify fun s h => ?_
    · exact fc_ids h s.features _ s.newLandmarkIds
    · exact fc_ids h s.features s.landmarkIds _

theorem sFeature {k : Int} {cam : Val} {prev : OMap Int D} {pp : Option (OMap Int D)} {id : Int} {d : D}
    (hp : ∀ raw, sym .X (k - 1) = .ok raw → (Fam.X, k - 1) ∈ L) (hk : (Fam.X, k) ∈ L) :
    Triple (FC (Val := Val) No ks L) (stereoFeature k cam prev pp id d) (fun _ => FC No ks L) (fun _ => True) := by
  unfold stereoFeature
  split
  · exact Triple.pure fun _ h => h
  · refine Triple.bind (Q := fun _ => FC (Pending id) ks L) ?_ fun _ => ?_
    · unfold stereoPrev
      split
      · exact sFirst hp
      · exact Triple.ite (fun _ => Triple.pure fun _ h => ⟨fa_mono h.1 fun _ _ h => h.elim, h.2⟩) fun _ => sFirst hp
    · unfold stereoCurrent
      refine Triple.bind (Triple.get (Q := fun _ => FC (Pending id) ks L) fun _ h => h) fun s0 => ?_
      split
      · exact Triple.ub fun _ _ => trivial
      · rename_i bp _
        refine Triple.bind (Q := fun _ => FC No ks ((.S, id) :: L)) (triv fun g hg a g' e => ?_) fun _ => triv fun g hg a g' e => ?_
        · have hc := keeps_grow_set g .S id (bp cam d) g (Grow.refl hg.1.fv.vinv)
          have := fa_set _ _ _ hg.1 e
          rw [e] at hc
          refine ⟨fa_settle this, ?_, ?_⟩
          · rw [hc.calib]; exact hg.2.1
          · rw [hc.ext]; exact hg.2.2
        · have get : ∀ (c : Fam) (j : Int) raw, (c, j) ∈ (Fam.S, id) :: L → sym c j = .ok raw → g.values.contains raw = true := by
            intro c j raw hm hr
            obtain ⟨raw', h1, h2⟩ := hg.1.has _ hm
            rw [hr] at h1
            cases h1
            exact h2
          have := fc_push hg (fun raw hr => get .X k raw (List.mem_cons_of_mem _ hk) hr)
            (fun _ raw hr => Or.inl (get .S id raw List.mem_cons_self hr)) e
          exact ⟨⟨this.1.fv, this.1.keys, fun x hx => this.1.has x (List.mem_cons_of_mem _ hx)⟩, this.2⟩

theorem sLoop {k : Int} {cam : Val} {prev : OMap Int D} {pp : Option (OMap Int D)}
    (hp : ∀ raw, sym .X (k - 1) = .ok raw → (Fam.X, k - 1) ∈ L) (hk : (Fam.X, k) ∈ L) (l : List (Int × D)) :
    Triple (FC (Val := Val) No ks L) (stereoLoop k cam prev pp l) (fun _ => FC No ks L) (fun _ => True) := by
  induction l with
  | nil => exact Triple.pure fun _ h => h
  | cons e l ih =>
    obtain ⟨id, obs⟩ := e
    unfold stereoLoop
    exact Triple.bind (sFeature hp hk) fun _ => ih

/-- A camera calibration is known. -/
def FK (ks : OMap String (Int × Nat)) (L : List (Fam × Int)) (g : GM Val D) : Prop := FA No ks L g ∧ g.calib.isSome = true

theorem factorsAt_emplace {g : GM Val D} (h : g.factors.Sorted) (k j : Int) :
    factorsAt { g with factors := g.factors.emplace k [] } j = factorsAt g j := by
  unfold factorsAt
  simp only
  rw [OMap.find_emplace h]
  by_cases e : j = k
  · subst e
    cases g.factors.find j <;> simp
  · simp [e]

theorem fk_emplace {g : GM Val D} (h : FK ks L g) (k : Int) : FK ks L { g with factors := g.factors.emplace k [] } := by
  refine ⟨⟨⟨vinv_indep_factors _ _ _ h.1.fv.vinv, OMap.sorted_emplace h.1.fv.sorted _ _, fun j => ?_, fun j => ?_⟩, h.1.keys, h.1.has⟩, h.2⟩
  · rw [factorsAt_emplace h.1.fv.sorted]; exact h.1.fv.vals j
  · rw [factorsAt_emplace h.1.fv.sorted]; exact h.1.fv.stereo j

theorem sCreate {k : Int} {feats : OMap Int D} (hp : ∀ raw, sym .X (k - 1) = .ok raw → (Fam.X, k - 1) ∈ L) :
    Triple (FK (Val := Val) ks L) (createStereo k feats) (fun _ => FA No ks L) (fun _ => True) := by
  unfold createStereo
  refine Triple.bind (Triple.get (Q := fun _ => FK ks L) fun _ h => h) fun s0 => Triple.ite (fun _ => Triple.throw fun _ _ => trivial) fun _ => ?_
  refine Triple.bind (Q := fun _ => FK ks L) (Triple.modify fun s h => ?_) fun _ => ?_
  · exact ⟨⟨⟨vinv_indep_stereo _ _ s.landmarkIds s.newLandmarkIds h.1.fv.vinv, h.1.fv.sorted, h.1.fv.vals, h.1.fv.stereo⟩, h.1.keys, h.1.has⟩, h.2⟩
  refine Triple.bind (Q := fun _ => FK ks L) (Triple.modify fun s h => fk_emplace h k) fun _ => ?_
  refine Triple.bind (Q := fun _ => FK ks L) (Triple.modify fun s h => ?_) fun _ => ?_
  · exact ⟨⟨⟨vinv_indep_factors _ s.factors _ h.1.fv.vinv, h.1.fv.sorted, h.1.fv.vals, h.1.fv.stereo⟩, h.1.keys, h.1.has⟩, h.2⟩
  refine Triple.bind (Triple.get (Q := fun _ => FK ks L) fun _ h => h) fun s1 => ?_
  split
  · refine Triple.bind (Q := fun _ => FK ks L) (triv fun g hg a g' e => ?_) fun hp' => Triple.ite (fun _ => Triple.throw fun _ _ => trivial) fun _ => ?_
    · have : g' = g := by
        cases hh : hasVal s1 .X k <;> rw [hh] at e <;> first | (cases e; rfl) | cases e
      rw [this]
      exact hg
    refine Triple.bind (Q := fun _ => FC No ks ((.X, k) :: L)) (triv fun g hg a g' e => ?_) fun cam => ?_
    · unfold stereoCameraPose at e
      rw [get_bind] at e
      cases hv : getVal g .X k with
      | ub => rw [hv] at e; cases e
      | throws => rw [hv] at e; cases e
      | ok v =>
        rw [hv, lift_ok_bind] at e
        cases hx : g.extrinsicSet with
        | false => rw [hx] at e; cases e
        | true =>
          rw [hx] at e
          have : g' = g := by cases e; rfl
          rw [this]
          refine ⟨⟨hg.1.fv, hg.1.keys, fun x hm => ?_⟩, hg.2, hx⟩
          rcases List.mem_cons.1 hm with rfl | hm
          · exact has_getVal hv
          · exact hg.1.has x hm
    refine Triple.bind (Q := fun _ => FC No ks ((.X, k) :: L)) (Triple.modify fun s h => fc_ids h s.features _ s.newLandmarkIds) fun _ => ?_
    refine Triple.bind (Q := fun _ => FC No ks ((.X, k) :: L)) (Triple.modify fun s h => fc_ids h s.features s.landmarkIds _) fun _ => ?_
    refine (sLoop (fun raw hr => List.mem_cons_of_mem _ (hp raw hr)) List.mem_cons_self _).conseq (fun _ h => h) (fun _ s h => ?_) (fun _ h => h)
    exact ⟨h.1.fv, h.1.keys, fun x hx => h.1.has x (List.mem_cons_of_mem _ hx)⟩
  · exact Triple.pure fun _ h => h.1

theorem keyAt_inc {name : String} {t k : Int} (h0 : keyAt ks name 0 = .ok t) (hs : ks.Sorted)
    (h1 : keyAt (incKeys ks name) name 0 = .ok k) : k = t + 1 := by
  unfold keyAt at h0 h1
  unfold incKeys at h1
  cases hf : ks.find name with
  | none => rw [hf] at h0; cases h0
  | some e =>
    rw [hf] at h0 h1
    simp only at h1
    rw [OMap.find_assign hs, if_pos rfl] at h1
    have h0 := Outcome.ok.inj h0
    have h1 := Outcome.ok.inj h1
    omega

theorem vAddStereo (api : Api Val D O C I) (msg : StereoMsg) {t : Int} (ht : keyAt ks "stereo" 0 = .ok t) (hs : ks.Sorted)
    (hp : ∀ raw, sym .X t = .ok raw → (Fam.X, t) ∈ L) :
    Triple (Av (O := O) (FA No ks L)) (addStereoFactors api msg) (fun _ => Av (FA No (incKeys ks "stereo") L)) CallsV := by
  unfold addStereoFactors
  refine Triple.bind (vInc _) fun _ => Triple.bind (vKey _ _) fun k => Triple.pure_pre fun hk => Triple.bind vRead' fun t' =>
    Triple.ite (fun _ => vThrow) fun _ => ?_
  have e := keyAt_inc ht hs hk
  subst e
  intro s hsA
  rw [get_bind]
  revert s
  intro s hsA
  have H : Triple (fun s' : BE Val D O => s' = s) (do
      branch s.isam.gm.calib.isNone
        (branch ((baselineOf msg.p3 msg.p0).nonPositive = true) M.throw (onG (setCalibration (api.calibrate msg)))) (pure ())
      let fs ← M.lift (fromRos msg.features)
      onG (createStereo (t + 1) (fs.map (fun e => (e.1, api.obs e.2)))))
      (fun _ => Av (FA No (incKeys ks "stereo") L)) CallsV := by
    refine Triple.bind (Q := fun _ => Av (FK (incKeys ks "stereo") L)) (tBranch (fun _ => ?_) fun hc => ?_) fun _ => ?_
    · refine (tBranch (fun _ => vThrow) fun _ => vOnG (A := FA No (incKeys ks "stereo") L) fun g hg a g' e => ?_).conseq
        (fun s' h => h ▸ hsA) (fun _ _ h => h) (fun _ h => h)
      have : g' = { g with calib := some (api.calibrate msg) } := by cases e; rfl
      subst this
      refine ⟨⟨⟨⟨hg.fv.vinv.1, hg.fv.vinv.2, hg.fv.vinv.3, hg.fv.vinv.4⟩, hg.fv.sorted, hg.fv.vals, fun j f hf hk => ?_⟩, hg.keys, hg.has⟩, rfl⟩
      exact ⟨rfl, (hg.fv.stereo j f hf hk).2⟩
    · refine Triple.pure fun s' h => ?_
      subst h
      refine ⟨⟨hsA.1, ?_⟩, hsA.2⟩
      cases hcal : s'.isam.gm.calib with
      | none => rw [hcal] at hc; simp at hc
      | some c => rfl
    · refine Triple.bind (Q := fun _ => Av (FK (incKeys ks "stereo") L)) (Triple.lift fun s h => ?_) fun fs => ?_
      · cases fromRos msg.features <;> first | exact h | exact h.2
      · exact vOnG fun g hg a g' e => (sCreate (fun raw hr => by
          have e1 : t + 1 - 1 = t := by omega
          rw [e1] at hr ⊢
          exact hp raw hr)).ok hg e
  exact H s rfl

theorem vStereo (er : EndRead) (api : Api Val D O C I) (cfg : Cfg) (msg : StereoMsg) {t : Int} (ht : keyAt ks "stereo" 0 = .ok t)
    (hs : ks.Sorted) (hp : ∀ raw, sym .X t = .ok raw → (Fam.X, t) ∈ L) :
    Triple (Av (O := O) (FA No ks L)) (stereoIter er api cfg msg) (fun _ => Between) CallsV := by
  unfold stereoIter
  refine Triple.bind vRead' fun k1 => Triple.bind vRead' fun t' => Triple.ite (fun _ => ?_) fun _ => Triple.pure fun s h => between_of h
  refine Triple.bind (Q := fun _ => Av (FA No (incKeys ks "stereo") L)) (tBranch (fun _ => vAddStereo api msg ht hs hp) fun _ => vInc _) fun _ => ?_
  refine Triple.bind vRead' fun m => Triple.bind vRead' fun k => ?_
  refine Triple.bind (Q := fun _ => Av (FA No (incKeys ks "stereo") L)) (tBranch (fun _ => ?_) fun _ => Triple.pure fun _ h => h)
    fun _ => Triple.pure fun s h => between_of h
  refine Triple.bind (vOptimiseAndPublish er api cfg k) fun _ => ?_
  exact tBranch (fun _ => Triple.pure fun _ h => h) fun _ => vUpdateVelocity api "stereo"

/-! ### Barometer -/

/-- Barometer biases may be missing while the factors of a message are made. -/
def Walk : Factor D → Key → Prop := fun f raw => isBaro f.kind = true ∧ ∃ j, sym .P j = .ok raw

theorem vBaroLoop (api : Api Val D O C I) (n : Nat) (k : Int) :
    Triple (Av (Val := Val) (O := O) (FA Walk ks L)) (baroBiasLoop api n k) (fun _ => Av (FA Walk ks L)) CallsV := by
  induction n generalizing k with
  | zero => exact Triple.pure fun _ h => h
  | succ n ih =>
    unfold baroBiasLoop
    refine Triple.bind (vCreate _ fun e he => Or.inr fun f raw hf hr => ?_) fun _ => ?_
    · simp only [factorVars, List.mem_cons, List.not_mem_nil, or_false] at he
      rw [Walk, hf]
      rcases he with rfl | rfl
      · exact ⟨rfl, _, hr⟩
      · exact ⟨rfl, _, hr⟩
    refine Triple.bind vRead' fun b => ?_
    refine Triple.bind (Q := fun _ => Av (FA Walk ks L)) ?_ fun _ => ih _
    exact (vSet _ _ _).conseq (fun _ h => h) (fun _ s h => vWeaken rfl (List.subset_cons_self _ _) h) (fun _ h => h)

theorem vBaroBody (api : Api Val D O C I) (cfg : Cfg) (next : Int) (msg : BaroMsg) {k : Int} (hk : keyAt ks "barometer" 0 = .ok k)
    (hx : (Fam.X, k) ∈ L) :
    Triple (Av (Val := Val) (O := O) (FA No ks L)) (baroBody api cfg next msg) (fun _ s => ∃ ks', Av (FA Walk ks' []) s) CallsV := by
  unfold baroBody
  refine Triple.bind (vKey _ _) fun k' => Triple.pure_pre fun hk' => Triple.bind vRead' fun t => Triple.ite (fun _ => vThrow) fun _ =>
    Triple.ite (fun _ => vThrow) fun _ => ?_
  rw [hk] at hk'
  cases hk'
  refine Triple.pre (P := Av (FA Walk ks L)) ?_ fun s h => ⟨fa_mono h.1 fun _ _ h => h.elim, h.2⟩
  refine Triple.bind (vCreate _ fun e he => ?_) fun _ => ?_
  · simp only [factorVars, List.mem_cons, List.not_mem_nil, or_false] at he
    rcases he with rfl | rfl
    · exact Or.inl hx
    · refine Or.inr fun f raw hf hr => ?_
      rw [Walk, hf]
      exact ⟨rfl, _, hr⟩
  refine Triple.bind (Q := fun _ => Av (FA Walk ks L)) (tBranch (fun _ => ?_) fun _ => Triple.pure fun _ h => h) fun _ => ?_
  · refine Triple.bind (Q := fun _ => Av (FA Walk ks L)) ?_ fun _ => tBranch (fun _ => vThrow) fun _ => vCreate _ fun e he => ?_
    · exact (vSet _ _ _).conseq (fun _ h => h) (fun _ s h => vWeaken rfl (List.subset_cons_self _ _) h) (fun _ h => h)
    · simp only [factorVars, List.mem_cons, List.not_mem_nil, or_false] at he
      subst he
      refine Or.inr fun f raw hf hr => ?_
      rw [Walk, hf]
      exact ⟨rfl, _, hr⟩
  refine Triple.bind (vBaroLoop api _ _) fun _ => ?_
  exact (vInc _).conseq (fun _ h => h) (fun _ s h => ⟨_, vWeaken rfl (List.nil_subset _) h⟩) (fun _ h => h)

theorem vBaroAdvance (stamp : Int) (n : Nat) :
    Triple (Between (Val := Val) (D := D) (O := O)) (baroAdvance stamp n) (fun _ => Between) CallsV := by
  induction n with
  | zero => exact Triple.pure fun _ h => h
  | succ n ih =>
    intro s ⟨ks, h⟩
    have H : Triple (Av (Val := Val) (D := D) (O := O) (FA No ks [])) (baroAdvance stamp (n + 1)) (fun _ => Between) CallsV := by
      unfold baroAdvance
      refine Triple.bind vRead' fun k => Triple.bind vRead' fun hp => Triple.ite (fun _ => ?_) fun _ => Triple.pure fun s h => ⟨_, h⟩
      refine Triple.bind vRead' fun t => Triple.ite (fun _ => ?_) fun _ => Triple.pure fun s h => ⟨_, h⟩
      exact Triple.bind (vInc _) fun _ => ih.pre fun s h => ⟨_, h⟩
    exact H s h

theorem vBaroWait (stamp : Int) : Triple (Between (Val := Val) (D := D) (O := O)) (baroWait stamp)
    (fun w s => Between s ∧ (w = false → ∃ ks k, keyAt ks "barometer" 0 = .ok k ∧ Av (FA No ks [(.X, k)]) s)) CallsV := by
  unfold baroWait
  refine Triple.bind (Triple.get (Q := fun _ => Between) fun _ h => h) fun s0 => Triple.bind (vBaroAdvance stamp _) fun _ => ?_
  intro s ⟨ks, h⟩
  have H : Triple (Av (Val := Val) (D := D) (O := O) (FA No ks [])) (do
      let k ← read (fun g => key g "barometer" 0)
      let hp ← read (fun g => hasPose g k)
      if hp then do
        let t ← read (fun g => timestamp g k)
        pure (decide (t < stamp))
      else pure true)
      (fun w s => Between s ∧ (w = false → ∃ ks k, keyAt ks "barometer" 0 = .ok k ∧ Av (FA No ks [(.X, k)]) s)) CallsV := by
    refine Triple.bind (vKey _ _) fun k => Triple.pure_pre fun hk => ?_
    refine Triple.bind (vRead (B := fun hp g => FA No ks [] g ∧ (hp = true → FA No ks [(.X, k)] g)) fun g hg hp e => ⟨hg, fun ht => ?_⟩) fun hp => ?_
    · subst ht
      refine ⟨hg.fv, hg.keys, fun x hx => ?_⟩
      rw [List.mem_singleton] at hx
      subst hx
      exact hasVal_ok e
    refine Triple.ite (fun ht => ?_) fun _ => Triple.pure fun s h => ⟨⟨ks, h.1.1, h.2⟩, by simp⟩
    refine Triple.bind vRead' fun t => Triple.pure fun s h => ⟨⟨ks, h.1.1, h.2⟩, fun _ => ⟨ks, k, hk, h.1.2 ht, h.2⟩⟩
  exact H s h

/-- Between two messages of the barometer no bias is missing. -/
theorem fa_walk {cfg : Cfg} {z : D} {p : Pm} {c : Int} {g : GM Val D} (hg : GSt cfg z p g) (hb : BaroSide c p.ba)
    (h : FA Walk ks L g) : FA No ks L g := by
  obtain ⟨h0, hv, hw, hp, hpf, hf⟩ := hb
  have val : ∀ k, 0 ≤ k → k < c → k < 2 ^ 56 ∧ g.values.contains (keyOf .P k) = true := by
    intro k h1 h2
    obtain ⟨raw, hr, hc⟩ := hasVal_ok ((hg.baro.vals k).2 ⟨h1, by omega⟩)
    obtain ⟨-, h3, rfl⟩ := sym_ok_iff.1 hr
    exact ⟨h3, hc⟩
  refine ⟨⟨h.fv.vinv, h.fv.sorted, fun k f hm raw hr => Or.inl ?_, h.fv.stereo⟩, h.keys, h.has⟩
  rcases h.fv.vals k f hm raw hr with hc | ⟨hk, j, hj⟩
  · exact hc
  · cases hkind : f.kind with
    | stereo => rw [hkind] at hk; cases hk
    | plain q =>
      rw [hkind] at hk
      cases q with
      | baro =>
        obtain ⟨e, h1, h2, -⟩ := hg.baro.press k f hm hkind
        have hk' := val k h1 (by omega)
        rw [e] at hr
        simp only [List.mem_cons, List.not_mem_nil, or_false] at hr
        rcases hr with rfl | rfl
        · cases (sym_inj hj (sym_ok_iff.2 ⟨h1, hk'.1, rfl⟩)).1
        · exact hk'.2
      | baroBias =>
        have hm' : f ∈ (factorsAt g k).filter (fun x => x.kind == .plain .baroBias) := List.mem_filter.2 ⟨hm, by rw [hkind]; rfl⟩
        rw [hg.baro.walk k] at hm'
        split at hm'
        · rename_i hlt
          rw [List.mem_singleton] at hm'
          subst hm'
          simp only [List.mem_cons, List.not_mem_nil, or_false] at hr
          rcases hr with rfl | rfl
          · exact (val (k - 1) (by omega) (by omega)).2
          · exact (val k (by omega) (by omega)).2
        · cases hm'
      | priorBaro =>
        have hm' : f.vars ∈ ((factorsAt g k).filter (fun x => x.kind == .plain .priorBaro)).map (fun x => x.vars) :=
          List.mem_map.2 ⟨f, List.mem_filter.2 ⟨hm, by rw [hkind]; rfl⟩, rfl⟩
        rw [hg.baro.prior k] at hm'
        split at hm'
        · rename_i hpk
          rw [List.mem_singleton] at hm'
          rw [hm', List.mem_singleton] at hr
          subst hr
          obtain ⟨-, h1, h2⟩ := hg.baro.first k (by rw [← hpf, hpk])
          exact (val k h1 (by omega)).2
        · cases hm'
      | _ => cases hk

/-! ### The node -/

theorem vGuarded {α : Type} {m : M (BE Val D O) α} (h : Triple (Av A) m (fun _ => Between) CallsV) :
    Triple (Av (O := O) A) (guarded m) (fun _ => Between) CallsV := by
  intro s hs
  have h1 := h { s with locked := true } hs
  unfold guarded
  rcases hr : m { s with locked := true } with ⟨x, b⟩
  rw [hr] at h1
  cases x with
  | ok a => exact h1
  | throws => exact h1
  | ub => exact h1

theorem sect_valued {α : Type} {m : M (BE Val D O) α} {f : Sys Val D O → Sys Val D O} {s s' : Sys Val D O} {r : Outcome Unit}
    {P Q : BE Val D O → Prop} (ht : Triple P m (fun _ => Q) CallsV) (hp : P s.be) (hf : ∀ s, (f s).be = s.be)
    (hq : ∀ b, Q b → CallsV b) (h : sect m f s = some (r, s')) : (r = .ok () → Q s'.be) ∧ CallsV s'.be := by
  have := ht s.be hp
  unfold sect at h
  rcases hr : m s.be with ⟨x, b⟩
  rw [hr] at this h
  cases x with
  | ok a =>
    simp only [Option.some.injEq, Prod.mk.injEq] at h
    rw [← h.2, hf]
    exact ⟨fun _ => this, hq _ this⟩
  | throws =>
    simp only [Option.some.injEq, Prod.mk.injEq] at h
    obtain ⟨rfl, rfl⟩ := h
    exact ⟨by simp, this⟩
  | ub =>
    simp only [Option.some.injEq, Prod.mk.injEq] at h
    obtain ⟨rfl, rfl⟩ := h
    exact ⟨by simp, this⟩

theorem sectAfter_valued {α : Type} {wait : M (BE Val D O) Bool} {m : M (BE Val D O) α} {f : Sys Val D O → Sys Val D O}
    {s s' : Sys Val D O} {r : Outcome Unit} {P Q : BE Val D O → Prop} {W : Bool → BE Val D O → Prop} (hw : Triple P wait W CallsV)
    (ht : ∀ b, W false b → Triple (fun b' => b' = b) m (fun _ => Q) CallsV) (hp : P s.be) (hf : ∀ s, (f s).be = s.be)
    (hq : ∀ b, Q b → CallsV b) (h : sectAfter wait m f s = some (r, s')) : (r = .ok () → Q s'.be) ∧ CallsV s'.be := by
  have := hw s.be hp
  unfold sectAfter at h
  rcases hr : wait s.be with ⟨x, b⟩
  rw [hr] at this h
  cases x with
  | ok w =>
    cases w with
    | true => simp at h
    | false => exact sect_valued (ht b this) (s := { s with be := b }) rfl hf hq h
  | throws =>
    simp only [Option.some.injEq, Prod.mk.injEq] at h
    obtain ⟨rfl, rfl⟩ := h
    exact ⟨by simp, this⟩
  | ub =>
    simp only [Option.some.injEq, Prod.mk.injEq] at h
    obtain ⟨rfl, rfl⟩ := h
    exact ⟨by simp, this⟩

theorem keyList_sorted (cfg : Cfg) (i r t b : Int) : (keyList cfg i r t b).Sorted := by
  have h1 : String.ltb (String.Legacy.iter "barometer") (String.Legacy.iter "imu") = true := ltb_eq_true (by decide +kernel)
  have h2 : String.ltb (String.Legacy.iter "imu") (String.Legacy.iter "reg") = true := ltb_eq_true (by decide +kernel)
  have h3 : String.ltb (String.Legacy.iter "reg") (String.Legacy.iter "stereo") = true := ltb_eq_true (by decide +kernel)
  have h4 : String.ltb (String.Legacy.iter "barometer") (String.Legacy.iter "reg") = true := ltb_eq_true (by decide +kernel)
  have h5 : String.ltb (String.Legacy.iter "imu") (String.Legacy.iter "stereo") = true := ltb_eq_true (by decide +kernel)
  have h6 : String.ltb (String.Legacy.iter "barometer") (String.Legacy.iter "stereo") = true := ltb_eq_true (by decide +kernel)
  unfold keyList OMap.Sorted
  cases cfg.baro <;> cases cfg.reg <;> cases cfg.stereo <;> simp [List.pairwise_cons, h1, h2, h3, h4, h5, h6]

/-- What is known after a section, before the barometer's numbers are looked at. -/
def Loose (b : BE Val D O) : Prop := ∃ ks, Av (FA Walk ks []) b

theorem loose_of {b : BE Val D O} (h : Between b) : Loose b := by
  obtain ⟨ks, h⟩ := h
  exact ⟨ks, fa_mono h.1 fun _ _ h => h.elim, h.2⟩

theorem loose_calls (b : BE Val D O) (h : Loose b) : CallsV b := by
  obtain ⟨ks, h⟩ := h
  exact h.2

theorem valued_step {er : EndRead} {api : Api Val D O C I} {cfg : Cfg} {s s' : Sys Val D O} {ev : Ev Val D C I} {r : Outcome Unit}
    {p : Pm} {o : Int} (hn : NInv cfg api.zero s p o) (hb : Between s.be) (h : nodeStep er api cfg ev s = some (r, s')) :
    (r = .ok () → Loose s'.be) ∧ CallsV s'.be := by
  have weak : ∀ {m : M (BE Val D O) Unit}, (∀ ks, Triple (Av (FA No ks [])) m (fun _ => Between) CallsV) →
      Triple Between m (fun _ => Loose) CallsV := by
    intro m hm s ⟨ks, hs⟩
    exact ((hm ks).conseq (fun _ h => h) (fun _ _ h => loose_of h) (fun _ h => h)) s hs
  cases ev with
  | initial msg =>
    simp only [nodeStep] at h
    split at h
    · cases h
    · exact sect_valued (f := fun s => { s with started := true }) (weak fun ks => vGuarded (vInitial er api cfg msg)) hb (fun _ => rfl) loose_calls h
  | imu msg =>
    simp only [nodeStep] at h
    split at h
    · simp only [Option.some.injEq, Prod.mk.injEq] at h
      obtain ⟨rfl, rfl⟩ := h
      exact ⟨by simp, loose_calls _ (loose_of hb)⟩
    · obtain ⟨ks, hks⟩ := hb
      refine sectAfter_valued (P := Av (FA No ks [])) (W := fun _ => Av (FA No ks [])) ?_ ?_ hks (fun _ => rfl) loose_calls h
      · exact vKeeps (Keeps.bind keeps_imuWarn fun _ => keeps_imuWait)
      · intro b hb'
        exact (vImu er api cfg msg).conseq (fun s e => e ▸ hb') (fun _ _ h => loose_of h) (fun _ h => h)
  | reg msg =>
    simp only [nodeStep] at h
    split at h
    · exact sect_valued (weak fun ks => vGuarded (vRegistration er api cfg msg)) hb (fun _ => rfl) loose_calls h
    · cases h
  | stereo msg =>
    simp only [nodeStep] at h
    split at h
    · rename_i hc
      obtain ⟨ks, hks⟩ := hb
      have hkeys : ks = keyList cfg p.i p.r p.t p.b := by rw [← hks.1.keys, hn.graph.1.keys]
      have hkey : keyAt ks "stereo" 0 = .ok p.t := by
        have := key_stereo hn.graph.1 hc 0
        rw [add_zero] at this
        unfold key at this
        rw [hn.graph.1.keys, ← hkeys] at this
        exact this
      have hpose : ∀ raw, sym .X p.t = .ok raw → s.be.isam.gm.values.contains raw = true := by
        intro raw hr
        obtain ⟨h1, -⟩ := sym_ok_iff.1 hr
        have hle : p.t ≤ p.np := by
          cases hst : s.started with
          | true =>
            have hs := hn.side hst
            rw [hs.poses]
            exact (hs.stereoLe hc).2
          | false =>
            have hs := hn.side0 hst
            have := hs.t
            omega
        obtain ⟨raw', h2, h3⟩ := hasVal_ok ((hn.graph.1.poses p.t).2 ⟨h1, hle⟩)
        rw [hr] at h2
        cases h2
        exact h3
      have hsorted : ks.Sorted := by
        rw [hkeys]
        exact keyList_sorted cfg _ _ _ _
      have hall : ∃ L, Av (FA No ks L) s.be ∧ ∀ raw, sym .X p.t = .ok raw → (Fam.X, p.t) ∈ L := by
        cases hs : sym .X p.t with
        | ok raw =>
          refine ⟨[(.X, p.t)], ⟨⟨hks.1.fv, hks.1.keys, fun e he => ?_⟩, hks.2⟩, fun _ _ => List.mem_cons_self⟩
          rw [List.mem_singleton] at he
          subst he
          exact ⟨raw, hs, hpose raw hs⟩
        | throws => exact ⟨[], hks, fun _ h => by cases h⟩
        | ub => exact ⟨[], hks, fun _ h => by cases h⟩
      obtain ⟨L, hL, hp⟩ := hall
      refine sectAfter_valued (P := Av (FA No ks L)) (W := fun _ => Av (FA No ks L)) (vKeeps keeps_stereoWait) ?_ hL (fun _ => rfl) loose_calls h
      intro b hb'
      exact (vStereo er api cfg msg hkey hsorted hp).conseq (fun s e => e ▸ hb') (fun _ _ h => loose_of h) (fun _ h => h)
    · cases h
  | baroStart =>
    simp only [nodeStep] at h
    split at h
    · split at h
      all_goals first
        | (cases h; done)
        | (simp only [Option.some.injEq, Prod.mk.injEq] at h; obtain ⟨rfl, rfl⟩ := h; exact ⟨fun _ => loose_of hb, loose_calls _ (loose_of hb)⟩)
    · cases h
  | baroPoll stamp =>
    simp only [nodeStep] at h
    split at h
    · refine sect_valued (P := Between) (Q := Loose) ?_ hb (fun _ => rfl) loose_calls h
      exact (vBaroWait stamp).conseq (fun _ h => h) (fun _ _ h => loose_of h.1) (fun _ h => h)
    · cases h
  | baroFinish msg =>
    simp only [nodeStep] at h
    split at h
    · cases h
    · refine sectAfter_valued (f := fun s => { s with baro := none }) (P := Between) (Q := Loose) (vBaroWait msg.stamp) ?_ hb (fun _ => rfl) loose_calls h
      intro b hw
      obtain ⟨ks, k, hk, hA⟩ := hw.2 rfl
      exact (vBaroBody api cfg _ msg hk List.mem_cons_self).conseq (fun s e => e ▸ hA) (fun _ _ h => h) (fun _ h => h)

theorem valued_reach {er : EndRead} {api : Api Val D O C I} {cfg : Cfg} {o : O} {s : Sys Val D O} (h : NodeReach er api cfg o s) :
    Between s.be := by
  induction h with
  | init hi =>
    obtain ⟨hg, -, hc⟩ := construct_ok hi
    have hgst := gst_init cfg api.zero _ (show _ = _ from hg.trans (by rw [hg]))
    refine ⟨_, ⟨⟨hgst.vinv, hgst.sorted, fun k f hf => ?_, fun k f hf => ?_⟩, rfl, fun e he => by cases he⟩, fun c hm => ?_⟩
    · rw [hg] at hf; simp [factorsAt, OMap.find] at hf
    · rw [hg] at hf; simp [factorsAt, OMap.find] at hf
    · rw [hc] at hm; cases hm
  | step hr hs ih =>
    obtain ⟨p, o', hn⟩ := nodeReach_inv hr
    obtain ⟨ks, hl⟩ := (valued_step hn ih hs).1 rfl
    obtain ⟨p', o'', hn'⟩ := nodeReach_inv (hr.step hs)
    have hb := hn'.baro
    refine ⟨ks, ?_, hl.2⟩
    split at hb
    · exact fa_walk hn'.graph.1 hb hl.1
    · exact fa_walk hn'.graph.1 hb.2.2 hl.1

/-- At every call of `optimise`, even one that throws, all variables of all factors have values. -/
theorem valued_seen {er : EndRead} {api : Api Val D O C I} {cfg : Cfg} {o : O} {s : Sys Val D O} (h : NodeSeen er api cfg o s) :
    CallsV s.be := by
  cases h with
  | reach hr => exact loose_calls _ (loose_of (valued_reach hr))
  | last hr hs =>
    obtain ⟨p, o', hn⟩ := nodeReach_inv hr
    exact (valued_step hn (valued_reach hr) hs).2

end BackEnd

end Serpent
