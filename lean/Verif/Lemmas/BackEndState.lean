import Verif.Lemmas.BackEndFrame

/-!
# What the back-end callbacks know about the graph

`GSt cfg p g` describes a graph state by a few numbers `p`; each operation of the callbacks changes them in a simple way.
-/

set_option linter.unusedSimpArgs false

namespace Serpent

namespace BackEnd

open Graph M

variable {Val D O C I : Type}

/-- Factor kinds of the barometer. -/
def isBaro : FactorKind → Bool
  | .plain .baro => true
  | .plain .baroBias => true
  | .plain .priorBaro => true
  | _ => false

/-- Changes that do not matter for the description below: `g'` has the keys and time stamps of `g0`, poses and barometer
biases for the same indices, and only further factors, none of the barometer. -/
structure Ext (g0 g' : GM Val D) : Prop where
  keys : g'.keys = g0.keys
  times : g'.timestamps = g0.timestamps
  vinv : VInv g'
  sorted : g'.factors.Sorted
  doms : ∀ c k, c = .X ∨ c = .P → hasVal g' c k = hasVal g0 c k
  facs : ∀ k, ∃ l, factorsAt g' k = factorsAt g0 k ++ l ∧ ∀ f ∈ l, isBaro f.kind = false

theorem Ext.refl {g : GM Val D} (hv : VInv g) (hf : g.factors.Sorted) : Ext g g :=
  ⟨rfl, rfl, hv, hf, fun _ _ _ => rfl, fun _ => ⟨[], by simp, by simp⟩⟩

theorem hasVal_eq (g g' : GM Val D) (c : Fam) (k : Int)
    (h : ∀ raw, sym c k = .ok raw → g'.values.contains raw = g.values.contains raw) : hasVal g' c k = hasVal g c k := by
  unfold hasVal
  cases hs : sym c k with
  | throws => rfl
  | ub => rfl
  | ok raw => simp only [Outcome.bind_ok, h raw hs]

theorem keeps_ext_set (g0 : GM Val D) (c : Fam) (hX : c ≠ .X) (hP : c ≠ .P) (k : Int) (v : Val) :
    Keeps (Ext g0) (set (D := D) c k v) := by
  intro g h
  cases hk : sym c k with
  | ub => exact absurd hk (sym_ne_ub _ _)
  | throws => rw [set_throws g hk]; exact h
  | ok raw =>
    rw [set_ok h.vinv hk]
    refine ⟨h.keys, h.times, vinv_setState h.vinv hk _ _, h.sorted, ?_, h.facs⟩
    intro c' k' hc'
    rw [← h.doms c' k' hc']
    apply hasVal_eq
    intro raw' hr'
    simp only [setState]
    rw [contains_assign h.vinv.values]
    have : raw' ≠ raw := by
      intro e
      subst e
      have := (sym_inj hr' hk).1
      rcases hc' with rfl | rfl
      · exact hX this.symm
      · exact hP this.symm
    simp [this]

theorem keeps_ext_update (g0 : GM Val D) (raw : Key) (v : Val) : Keeps (Ext g0) (update (D := D) raw v) := by
  intro g h
  rw [update_run]
  split
  · rename_i hc
    refine ⟨h.keys, h.times, vinv_updateState h.vinv hc v, h.sorted, ?_, h.facs⟩
    intro c' k' hc'
    rw [← h.doms c' k' hc']
    apply hasVal_eq
    intro raw' _
    simp only [updateState]
    rw [contains_assign h.vinv.values]
    by_cases e : raw' = raw
    · subst e; simp [hc]
    · simp [e]
  · exact h

theorem factorsAt_add {g : GM Val D} (h : g.factors.Sorted) (k j : Int) (f : Factor D) :
    factorsAt (addFactor k f g).2 j = factorsAt g j ++ (if j = k then [f] else []) := by
  have := lookup_alter h k j [f]
  unfold lookup at this
  simp only [factorsAt, addFactor, modify_run]
  rw [this]
  by_cases e : j = k
  · subst e; simp
  · simp [e]

theorem keeps_ext_addFactor (g0 : GM Val D) (k : Int) (f : Factor D) (hb : isBaro f.kind = false) :
    Keeps (Ext g0) (addFactor (Val := Val) k f) := by
  intro g h
  refine ⟨h.keys, h.times, vinv_indep_factors _ _ _ h.vinv, OMap.sorted_alter h.sorted _ _, h.doms, ?_⟩
  intro j
  obtain ⟨l, hl, hn⟩ := h.facs j
  refine ⟨l ++ (if j = k then [f] else []), ?_, ?_⟩
  · rw [factorsAt_add h.sorted, hl, List.append_assoc]
  · intro x hx
    rcases List.mem_append.1 hx with hx | hx
    · exact hn x hx
    · split at hx
      · simp at hx; subst hx; exact hb
      · simp at hx

theorem keeps_ext_createFactor (g0 : GM Val D) (p : PlainKind) (hp : isBaro (.plain p) = false) (k : Int) (d : D) :
    Keeps (Ext g0) (createFactor (Val := Val) p k d) := by
  unfold createFactor
  exact Keeps.bind (Keeps.lift _) fun _ => keeps_ext_addFactor g0 k _ hp

theorem ext_of_quiet {g0 g g' : GM Val D} (h : Ext g0 g) (hk : g'.keys = g.keys) (ht : g'.timestamps = g.timestamps)
    (hv : VInv g') (hva : g'.values = g.values) (hfa : g'.factors = g.factors) : Ext g0 g' := by
  refine ⟨hk.trans h.keys, ht.trans h.times, hv, hfa ▸ h.sorted, ?_, ?_⟩
  · intro c k hc
    rw [← h.doms c k hc]
    exact hasVal_eq _ _ _ _ (fun raw _ => by rw [hva])
  · intro k
    obtain ⟨l, hl, hn⟩ := h.facs k
    exact ⟨l, by rw [← hl]; simp only [factorsAt, hfa], hn⟩

theorem keeps_ext_createStereo (g0 : GM Val D) (k : Int) (fs : OMap Int D) :
    Keeps (Ext g0) (createStereo (Val := Val) k fs) := by
  refine keeps_createStereo_of (fun id v => keeps_ext_set g0 .S (by simp) (by simp) _ _)
    (fun k f hf => keeps_ext_addFactor g0 k f (by rw [hf]; rfl)) ?_ ?_ ?_ k fs
  · intro s a b c h
    exact ext_of_quiet h rfl rfl (vinv_indep_stereo _ _ _ _ h.vinv) rfl rfl
  · intro s k h
    refine ⟨h.keys, h.times, vinv_indep_factors _ _ _ h.vinv, OMap.sorted_emplace h.sorted _ _, h.doms, ?_⟩
    intro j
    obtain ⟨l, hl, hn⟩ := h.facs j
    refine ⟨l, ?_, hn⟩
    rw [← hl]
    have := lookup_emplace h.sorted k j
    unfold lookup at this
    simp only [factorsAt, this]
  · intro s k h
    exact ext_of_quiet h rfl rfl (vinv_indep_factors _ _ _ h.vinv) rfl rfl

theorem keeps_ext_setExtrinsic (g0 : GM Val D) : Keeps (Ext g0) (setExtrinsic (Val := Val) (D := D)) := by
  intro g h
  exact ext_of_quiet h rfl rfl ⟨h.vinv.1, h.vinv.2, h.vinv.3, h.vinv.4⟩ rfl rfl

theorem keeps_ext_setCalibration (g0 : GM Val D) (bp : Val → D → Val) : Keeps (Ext g0) (setCalibration bp) := by
  intro g h
  exact ext_of_quiet h rfl rfl ⟨h.vinv.1, h.vinv.2, h.vinv.3, h.vinv.4⟩ rfl rfl

theorem keeps_ext_extractNewFactors (g0 : GM Val D) (k : Int) : Keeps (Ext g0) (extractNewFactors (Val := Val) k) := by
  intro g h
  exact ext_of_quiet h rfl rfl (vinv_indep_factors _ _ _ h.vinv) rfl rfl

theorem keeps_ext_extractNewValues (g0 : GM Val D) (er : EndRead) (k : Int) :
    Keeps (Ext g0) (extractNewValues (Val := Val) er k) := by
  intro g h
  have hv := keeps_vinv_extractNewValues er k g h.vinv
  rcases extractNewValues_frame er k g with ⟨n, l, e⟩
  rw [e] at hv ⊢
  exact ext_of_quiet h rfl rfl hv rfl rfl

theorem keeps_ext_extractUnmarg (g0 : GM Val D) (k : Int) :
    Keeps (Ext g0) (extractUnmarginalisedKeys (Val := Val) k) := by
  intro g h
  exact ext_of_quiet h rfl rfl ⟨h.vinv.1, h.vinv.2, h.vinv.3, h.vinv.4⟩ rfl rfl

/-- The optimiser changes nothing that matters. -/
theorem keeps_ext_optimise (g0 : GM Val D) (er : EndRead) (api : OptApi Val D O) (k : Int) :
    Keeps (fun s : Isam Val D O => Ext g0 s.gm) (optimise er api k) := by
  have hon : ∀ {α : Type} {m : M (GM Val D) α}, Keeps (Ext g0) m → Keeps (fun s : Isam Val D O => Ext g0 s.gm) (onGm m) :=
    fun hm s hs => hm _ hs
  unfold optimise
  refine Keeps.bind (hon (keeps_ext_extractNewFactors _ _)) fun fs => ?_
  refine Keeps.bind (hon (keeps_ext_extractNewValues _ _ _)) fun vs => ?_
  refine Keeps.bind Keeps.get fun s => Keeps.bind (Keeps.lift _) fun o => ?_
  refine Keeps.bind (Keeps.modify fun s h => h) fun _ => Keeps.bind (Keeps.modify fun s h => h) fun _ => ?_
  refine Keeps.bind (hon (keeps_updateFromValues' (fun raw v => keeps_ext_update g0 raw v) _)) fun _ => ?_
  refine Keeps.bind Keeps.get fun s => Keeps.ite ?_ (Keeps.pure _)
  unfold marginalise
  refine Keeps.bind Keeps.get fun s => Keeps.ite Keeps.throw ?_
  refine Keeps.bind (hon (keeps_ext_extractUnmarg _ _)) fun ks => ?_
  refine Keeps.bind (Keeps.modify fun s h => h) fun _ => Keeps.bind Keeps.get fun _ => Keeps.bind (Keeps.lift _) fun _ => ?_
  exact Keeps.modify fun s h => h

/-! ### The description -/

/-- The named keys: IMU, registration, stereo and barometer. -/
def keyList (cfg : Cfg) (i r t b : Int) : OMap String (Int × Nat) :=
  (if cfg.baro then [("barometer", (b, 1))] else []) ++ [("imu", (i, 0))] ++
    (if cfg.reg then [("reg", (r, 0))] else []) ++ (if cfg.stereo then [("stereo", (t, 0))] else [])

/-- Numbers that describe the barometer part of a graph: bias values for `0 ≤ k < cv`, random walk factors for
`1 ≤ k < cw`, pressure factors for some `0 ≤ k < cp`, the first of them at `f`, prior at `pf`. -/
structure BaroP where
  cv : Int
  cw : Int
  cp : Int
  f : Option Int
  pf : Option Int

/-- The barometer part of the graph. -/
structure BaroInv (b : BaroP) (zero : D) (g : GM Val D) : Prop where
  vals : ∀ k, hasVal g .P k = .ok true ↔ 0 ≤ k ∧ k < b.cv
  walk : ∀ k, (factorsAt g k).filter (fun x => x.kind == .plain .baroBias) =
    if 1 ≤ k ∧ k < b.cw then [⟨.plain .baroBias, [keyOf .P (k - 1), keyOf .P k], zero⟩] else []
  prior : ∀ k, ((factorsAt g k).filter (fun x => x.kind == .plain .priorBaro)).map (fun x => x.vars) =
    if b.pf = some k then [[keyOf .P k]] else []
  press : ∀ k, ∀ x ∈ factorsAt g k, x.kind = .plain .baro →
    x.vars = [keyOf .X k, keyOf .P k] ∧ 0 ≤ k ∧ k < b.cp ∧ ∃ f0, b.f = some f0 ∧ f0 ≤ k
  first : ∀ f0, b.f = some f0 → HasFactor g .baro f0 ∧ 0 ≤ f0 ∧ f0 < b.cp

/-- The numbers that describe a graph. -/
structure Pm where
  i : Int
  r : Int
  t : Int
  b : Int
  np : Int
  nt : Int
  fi : Int
  fr : Int
  ba : BaroP

/-- The graph is described by `p`. -/
structure GSt (cfg : Cfg) (zero : D) (p : Pm) (g : GM Val D) : Prop where
  keys : g.keys = keyList cfg p.i p.r p.t p.b
  vinv : VInv g
  sorted : g.factors.Sorted
  tsorted : g.timestamps.Sorted
  poses : ∀ k, hasVal g .X k = .ok true ↔ 0 ≤ k ∧ k ≤ p.np
  times : ∀ k, (∃ t, timestamp g k = .ok t) ↔ 0 ≤ k ∧ k ≤ p.nt
  imu : cfg.imu = true → ∀ k, 1 ≤ k → k ≤ p.fi → HasFactor g .combinedImu k
  reg : cfg.reg = true → ∀ k, 1 ≤ k → k ≤ p.fr → HasFactor g .betweenPose k
  baro : BaroInv p.ba zero g

theorem hasFactor_ext {g g' : GM Val D} (h : Ext g g') {p : PlainKind} {k : Int} (hf : HasFactor g p k) :
    HasFactor g' p k := by
  obtain ⟨f, hf, hk⟩ := hf
  obtain ⟨l, hl, _⟩ := h.facs k
  exact ⟨f, by rw [hl]; exact List.mem_append_left _ hf, hk⟩

theorem filter_ext {g g' : GM Val D} (h : Ext g g') (k : Int) (q : FactorKind) (hq : isBaro q = true) :
    (factorsAt g' k).filter (fun x => x.kind == q) = (factorsAt g k).filter (fun x => x.kind == q) := by
  obtain ⟨l, hl, hn⟩ := h.facs k
  rw [hl, List.filter_append]
  have : l.filter (fun x => x.kind == q) = [] := by
    rw [List.filter_eq_nil_iff]
    intro x hx e
    have e := eq_of_beq e
    have := hn x hx
    rw [e, hq] at this
    simp at this
  rw [this, List.append_nil]

theorem baroInv_ext {g g' : GM Val D} {b : BaroP} {z : D} (hb : BaroInv b z g) (h : Ext g g') :
    BaroInv b z g' := by
  refine ⟨?_, ?_, ?_, ?_, ?_⟩
  · intro k; rw [h.doms _ _ (Or.inr rfl)]; exact hb.vals k
  · intro k; rw [filter_ext h k _ rfl]; exact hb.walk k
  · intro k; rw [filter_ext h k _ rfl]; exact hb.prior k
  · intro k x hx hk
    obtain ⟨l, hl, hn⟩ := h.facs k
    rw [hl] at hx
    rcases List.mem_append.1 hx with hx | hx
    · exact hb.press k x hx hk
    · have := hn x hx
      rw [hk] at this
      simp [isBaro] at this
  · intro f0 hf
    have := hb.first f0 hf
    exact ⟨hasFactor_ext h this.1, this.2⟩

theorem gst_ext {cfg : Cfg} {z : D} {p : Pm} {g g' : GM Val D} (hg : GSt cfg z p g) (h : Ext g g') : GSt cfg z p g' := by
  refine ⟨h.keys.trans hg.keys, h.vinv, h.sorted, h.times ▸ hg.tsorted, ?_, ?_, ?_, ?_, baroInv_ext hg.baro h⟩
  · intro k; rw [h.doms _ _ (Or.inl rfl)]; exact hg.poses k
  · intro k
    have : timestamp g' k = timestamp g k := by unfold timestamp; rw [h.times]
    rw [this]; exact hg.times k
  · intro hc k h1 h2; exact hasFactor_ext h (hg.imu hc k h1 h2)
  · intro hc k h1 h2; exact hasFactor_ext h (hg.reg hc k h1 h2)

/-- An operation that only makes unimportant changes. -/
theorem keeps_gst {α : Type} {cfg : Cfg} {z : D} {p : Pm} {m : M (GM Val D) α} (h : ∀ g0, Keeps (Ext g0) m) :
    Keeps (GSt cfg z p) m := by
  intro g hg
  exact gst_ext hg (h g g (Ext.refl hg.vinv hg.sorted))

/-! ### Named keys -/

theorem ltb_eq_false {a b : String} (h : ¬ a.toList < b.toList) :
    String.ltb (String.Legacy.iter a) (String.Legacy.iter b) = false := by
  have := mt String.lt_iff_toList_lt.1 h
  simpa using this

theorem ltb_imu_barometer : String.ltb (String.Legacy.iter "imu") (String.Legacy.iter "barometer") = false :=
  ltb_eq_false (by decide +kernel)
theorem ltb_reg_barometer : String.ltb (String.Legacy.iter "reg") (String.Legacy.iter "barometer") = false :=
  ltb_eq_false (by decide +kernel)
theorem ltb_reg_imu : String.ltb (String.Legacy.iter "reg") (String.Legacy.iter "imu") = false :=
  ltb_eq_false (by decide +kernel)
theorem ltb_stereo_barometer : String.ltb (String.Legacy.iter "stereo") (String.Legacy.iter "barometer") = false :=
  ltb_eq_false (by decide +kernel)
theorem ltb_stereo_imu : String.ltb (String.Legacy.iter "stereo") (String.Legacy.iter "imu") = false :=
  ltb_eq_false (by decide +kernel)
theorem ltb_stereo_reg : String.ltb (String.Legacy.iter "stereo") (String.Legacy.iter "reg") = false :=
  ltb_eq_false (by decide +kernel)


theorem key_imu {cfg : Cfg} {z : D} {p : Pm} {g : GM Val D} (h : GSt cfg z p g) (off : Int) :
    key g "imu" off = .ok (p.i + off) := by
  unfold key
  rw [h.keys]
  cases hb : cfg.baro <;> simp [keyList, hb, OMap.find]

theorem key_reg {cfg : Cfg} {z : D} {p : Pm} {g : GM Val D} (h : GSt cfg z p g) (hr : cfg.reg = true) (off : Int) :
    key g "reg" off = .ok (p.r + off) := by
  unfold key
  rw [h.keys]
  cases hb : cfg.baro <;> simp [keyList, hb, hr, OMap.find]

theorem key_stereo {cfg : Cfg} {z : D} {p : Pm} {g : GM Val D} (h : GSt cfg z p g) (hs : cfg.stereo = true) (off : Int) :
    key g "stereo" off = .ok (p.t + off) := by
  unfold key
  rw [h.keys]
  cases hb : cfg.baro <;> cases hr : cfg.reg <;> simp [keyList, hb, hr, hs, OMap.find]

theorem key_baro {cfg : Cfg} {z : D} {p : Pm} {g : GM Val D} (h : GSt cfg z p g) (hb : cfg.baro = true) (off : Int) :
    key g "barometer" off = .ok (p.b + off) := by
  unfold key
  rw [h.keys]
  simp [keyList, hb, OMap.find]

/-- The smallest of the enabled keys of priority 0. -/
theorem minimumKey_gst {cfg : Cfg} {z : D} {p : Pm} {g : GM Val D} (h : GSt cfg z p g) {m : Int}
    (hm : minimumKey g 0 = .ok m) : m ≤ p.i ∧ (cfg.reg = true → m ≤ p.r) ∧ (cfg.stereo = true → m ≤ p.t) := by
  unfold minimumKey at hm
  rw [h.keys] at hm
  cases hb : cfg.baro <;> cases hr : cfg.reg <;> cases hs : cfg.stereo <;>
    simp [keyList, hb, hr, hs, minLoop, minAcc] at hm ⊢ <;> omega

theorem gst_increment {cfg : Cfg} {z : D} {p p' : Pm} {name : String} {k : Int} {pr : Nat} {g : GM Val D}
    (h : GSt cfg z p g) (hk : (keyList cfg p.i p.r p.t p.b).find name = some (k, pr))
    (hp : (keyList cfg p.i p.r p.t p.b).assign name (k + 1, pr) = keyList cfg p'.i p'.r p'.t p'.b)
    (e1 : p'.np = p.np) (e2 : p'.nt = p.nt) (e3 : p'.fi = p.fi) (e4 : p'.fr = p.fr) (e5 : p'.ba = p.ba) :
    ∃ g', increment name g = (.ok (), g') ∧ GSt cfg z p' g' := by
  refine ⟨{ g with keys := keyList cfg p'.i p'.r p'.t p'.b }, by simp only [increment, h.keys, hk, hp], ?_⟩
  refine ⟨rfl, ⟨h.vinv.1, h.vinv.2, h.vinv.3, h.vinv.4⟩, h.sorted, h.tsorted, ?_, ?_, ?_, ?_, ?_⟩
  · intro k; rw [e1]; exact h.poses k
  · intro k; rw [e2]; exact h.times k
  · intro hc k h1 h2; rw [e3] at h2; exact h.imu hc k h1 h2
  · intro hc k h1 h2; rw [e4] at h2; exact h.reg hc k h1 h2
  · rw [e5]
    exact ⟨h.baro.1, h.baro.2, h.baro.3, h.baro.4, h.baro.5⟩

theorem gst_inc_imu {cfg : Cfg} {z : D} {p : Pm} {g : GM Val D} (h : GSt cfg z p g) :
    ∃ g', increment "imu" g = (.ok (), g') ∧ GSt cfg z { p with i := p.i + 1 } g' := by
  refine gst_increment h (k := p.i) (pr := 0) ?_ ?_ rfl rfl rfl rfl rfl
  · cases hb : cfg.baro <;> simp [keyList, hb, OMap.find]
  · cases hb : cfg.baro <;> simp [keyList, hb, OMap.assign, OMap.alter, ltb_imu_barometer, ltb_reg_barometer, ltb_reg_imu, ltb_stereo_barometer, ltb_stereo_imu, ltb_stereo_reg]

theorem gst_inc_reg {cfg : Cfg} {z : D} {p : Pm} {g : GM Val D} (h : GSt cfg z p g) (hr : cfg.reg = true) :
    ∃ g', increment "reg" g = (.ok (), g') ∧ GSt cfg z { p with r := p.r + 1 } g' := by
  refine gst_increment h (k := p.r) (pr := 0) ?_ ?_ rfl rfl rfl rfl rfl
  · cases hb : cfg.baro <;> simp [keyList, hb, hr, OMap.find]
  · cases hb : cfg.baro <;> simp [keyList, hb, hr, OMap.assign, OMap.alter, ltb_imu_barometer, ltb_reg_barometer, ltb_reg_imu, ltb_stereo_barometer, ltb_stereo_imu, ltb_stereo_reg]

theorem gst_inc_stereo {cfg : Cfg} {z : D} {p : Pm} {g : GM Val D} (h : GSt cfg z p g) (hs : cfg.stereo = true) :
    ∃ g', increment "stereo" g = (.ok (), g') ∧ GSt cfg z { p with t := p.t + 1 } g' := by
  refine gst_increment h (k := p.t) (pr := 0) ?_ ?_ rfl rfl rfl rfl rfl
  · cases hb : cfg.baro <;> cases hr : cfg.reg <;> simp [keyList, hb, hr, hs, OMap.find]
  · cases hb : cfg.baro <;> cases hr : cfg.reg <;> simp [keyList, hb, hr, hs, OMap.assign, OMap.alter, ltb_imu_barometer, ltb_reg_barometer, ltb_reg_imu, ltb_stereo_barometer, ltb_stereo_imu, ltb_stereo_reg]

theorem gst_inc_baro {cfg : Cfg} {z : D} {p : Pm} {g : GM Val D} (h : GSt cfg z p g) (hb : cfg.baro = true) :
    ∃ g', increment "barometer" g = (.ok (), g') ∧ GSt cfg z { p with b := p.b + 1 } g' := by
  refine gst_increment h (k := p.b) (pr := 1) ?_ ?_ rfl rfl rfl rfl rfl
  · simp [keyList, hb, OMap.find]
  · simp [keyList, hb, OMap.assign, OMap.alter, ltb_imu_barometer, ltb_reg_barometer, ltb_reg_imu, ltb_stereo_barometer, ltb_stereo_imu, ltb_stereo_reg]

/-! ### Poses, time stamps and factors -/

/-- Setting a value of the family `c` at index `k` (if it does not throw). -/
theorem hasVal_set {g : GM Val D} (h : VInv g) {c : Fam} {k : Int} {raw : Key} (hk : sym c k = .ok raw) (v : Val)
    (c' : Fam) (k' : Int) :
    hasVal (setState g raw k v) c' k' = .ok true ↔ hasVal g c' k' = .ok true ∨ (c' = c ∧ k' = k) := by
  unfold hasVal
  cases hs : sym c' k' with
  | ub => exact absurd hs (sym_ne_ub _ _)
  | throws =>
    simp only [Outcome.bind_throws]
    constructor
    · intro h; cases h
    · rintro (h | ⟨rfl, rfl⟩)
      · cases h
      · rw [hk] at hs; cases hs
  | ok raw' =>
    simp only [Outcome.bind_ok, setState, Outcome.ok.injEq]
    rw [contains_assign h.values]
    by_cases e : raw' = raw
    · subst e
      obtain ⟨rfl, rfl⟩ := sym_inj hs hk
      simp
    · have : ¬ (c' = c ∧ k' = k) := by
        rintro ⟨rfl, rfl⟩
        rw [hk] at hs
        exact e (Outcome.ok.inj hs).symm
      simp [e, this]

theorem gst_setPose {cfg : Cfg} {z : D} {p : Pm} {g : GM Val D} (h : GSt cfg z p g) {k : Int} (hk : k ≤ p.np + 1)
    (v : Val) : ∀ g', setPose k v g = (.ok (), g') → GSt cfg z { p with np := max p.np k } g' := by
  intro g' hg'
  unfold setPose at hg'
  cases hs : sym .X k with
  | ub => exact absurd hs (sym_ne_ub _ _)
  | throws => rw [set_throws g hs] at hg'; cases hg'
  | ok raw =>
    rw [set_ok h.vinv hs] at hg'
    obtain ⟨-, rfl⟩ := Prod.mk.injEq _ _ _ _ ▸ hg'
    have h0 : 0 ≤ k := by
      by_contra hn
      have : sym .X k = .throws := sym_throws_iff.2 (fun hh => hn hh.1)
      rw [hs] at this; cases this
    refine ⟨h.keys, vinv_setState h.vinv hs _ _, h.sorted, h.tsorted, ?_, h.times, h.imu, h.reg, ?_⟩
    · intro j
      rw [hasVal_set h.vinv hs, h.poses j]
      simp only [true_and]
      omega
    · refine ⟨?_, h.baro.2, h.baro.3, h.baro.4, h.baro.5⟩
      intro j
      rw [hasVal_set h.vinv hs, h.baro.vals j]
      simp

theorem gst_setTimestamp {cfg : Cfg} {z : D} {p : Pm} {g : GM Val D} (h : GSt cfg z p g) {k : Int} (hk : k ≤ p.nt + 1)
    (h0 : 0 ≤ k) (t : Int) : ∀ g', setTimestamp k t g = (.ok (), g') → GSt cfg z { p with nt := max p.nt k } g' := by
  intro g' hg'
  simp only [setTimestamp, modify_run, Prod.mk.injEq, true_and] at hg'
  subst hg'
  have hs := OMap.sorted_emplace h.tsorted k t
  refine ⟨h.keys, ⟨h.vinv.1, h.vinv.2, h.vinv.3, h.vinv.4⟩, h.sorted, OMap.sorted_assign hs _ _, h.poses, ?_, h.imu, h.reg,
    ⟨h.baro.1, h.baro.2, h.baro.3, h.baro.4, h.baro.5⟩⟩
  intro j
  have hj := h.times j
  unfold timestamp at hj ⊢
  rw [OMap.find_assign hs, OMap.find_emplace h.tsorted]
  by_cases e : j = k
  · subst e
    simp
    omega
  · simp only [e, if_false]
    rw [hj]
    omega

/-- Adding a factor that is not of the barometer. -/
theorem ext_createFactor {g : GM Val D} (hv : VInv g) (hs : g.factors.Sorted) {q : PlainKind} (hq : isBaro (.plain q) = false)
    {k : Int} {d : D} {g' : GM Val D} (hr : createFactor q k d g = (.ok (), g')) : Ext g g' ∧ HasFactor g' q k := by
  have hx : Ext g g' := by
    have := keeps_ext_createFactor g q hq k d g (Ext.refl hv hs)
    rw [hr] at this
    exact this
  refine ⟨hx, ?_⟩
  unfold createFactor at hr
  rw [bind_run] at hr
  cases hy : syms (factorVars q k) with
  | ub => exact absurd hy (syms_ne_ub _)
  | throws => rw [hy, lift_run] at hr; cases hr
  | ok vars =>
    rw [hy, lift_run] at hr
    simp only at hr
    have e : g' = (addFactor k { kind := .plain q, vars := vars, meas := d } g).2 := by rw [hr]
    refine ⟨{ kind := .plain q, vars := vars, meas := d }, ?_, rfl⟩
    rw [e, factorsAt_add hs]
    simp

theorem gst_createImu {cfg : Cfg} {z : D} {p : Pm} {g : GM Val D} (h : GSt cfg z p g) {k : Int} (hk : k ≤ p.fi + 1)
    (d : D) : ∀ g', createFactor .combinedImu k d g = (.ok (), g') → GSt cfg z { p with fi := max p.fi k } g' := by
  intro g' hr
  obtain ⟨hx, hf⟩ := ext_createFactor h.vinv h.sorted rfl hr
  have h' := gst_ext h hx
  refine ⟨h'.keys, h'.vinv, h'.sorted, h'.tsorted, h'.poses, h'.times, ?_, h'.reg, h'.baro⟩
  intro hc j h1 h2
  by_cases e : j = k
  · subst e; exact hf
  · exact h'.imu hc j h1 (by simp at h2; omega)

theorem gst_createReg {cfg : Cfg} {z : D} {p : Pm} {g : GM Val D} (h : GSt cfg z p g) {k : Int} (hk : k ≤ p.fr + 1)
    (d : D) : ∀ g', createFactor .betweenPose k d g = (.ok (), g') → GSt cfg z { p with fr := max p.fr k } g' := by
  intro g' hr
  obtain ⟨hx, hf⟩ := ext_createFactor h.vinv h.sorted rfl hr
  have h' := gst_ext h hx
  refine ⟨h'.keys, h'.vinv, h'.sorted, h'.tsorted, h'.poses, h'.times, h'.imu, ?_, h'.baro⟩
  intro hc j h1 h2
  by_cases e : j = k
  · subst e; exact hf
  · exact h'.reg hc j h1 (by simp at h2; omega)

/-! ### Barometer -/

theorem createFactor_ok {q : PlainKind} {k : Int} {d : D} {g g' : GM Val D} (hr : createFactor q k d g = (.ok (), g')) :
    ∃ vars, syms (factorVars q k) = .ok vars ∧
      g' = (addFactor k { kind := .plain q, vars := vars, meas := d } g).2 := by
  unfold createFactor at hr
  rw [bind_run] at hr
  cases hy : syms (factorVars q k) with
  | ub => exact absurd hy (syms_ne_ub _)
  | throws => rw [hy, lift_run] at hr; cases hr
  | ok vars =>
    rw [hy, lift_run] at hr
    simp only at hr
    exact ⟨vars, rfl, by rw [hr]⟩

/-- Adding any factor, as far as the description without the barometer is concerned. -/
theorem gst_addFactor {cfg : Cfg} {z : D} {p : Pm} {g : GM Val D} (h : GSt cfg z p g) (k : Int) (f : Factor D) (ba : BaroP)
    (hb : BaroInv ba z (addFactor k f g).2) : GSt cfg z { p with ba := ba } (addFactor k f g).2 := by
  have hmono : ∀ q j, HasFactor g q j → HasFactor (addFactor k f g).2 q j := by
    rintro q j ⟨x, hx, hk⟩
    exact ⟨x, by rw [factorsAt_add h.sorted]; exact List.mem_append_left _ hx, hk⟩
  exact ⟨h.keys, vinv_indep_factors _ _ _ h.vinv, OMap.sorted_alter h.sorted _ _, h.tsorted, h.poses, h.times,
    fun hc j h1 h2 => hmono _ _ (h.imu hc j h1 h2), fun hc j h1 h2 => hmono _ _ (h.reg hc j h1 h2), hb⟩

theorem syms_one {c : Fam} {j : Int} {vars : List Key} (h : syms [(c, j)] = .ok vars) : vars = [keyOf c j] := by
  unfold syms at h
  cases hs : sym c j with
  | ub => exact absurd hs (sym_ne_ub _ _)
  | throws => rw [hs] at h; cases h
  | ok raw =>
    rw [hs] at h
    simp only [Outcome.bind_ok, syms, Outcome.ok.injEq] at h
    rw [← h, keyOf_of_sym hs]

theorem syms_two {c c' : Fam} {j j' : Int} {vars : List Key} (h : syms [(c, j), (c', j')] = .ok vars) :
    vars = [keyOf c j, keyOf c' j'] ∧ 0 ≤ j ∧ 0 ≤ j' := by
  unfold syms at h
  cases hs : sym c j with
  | ub => exact absurd hs (sym_ne_ub _ _)
  | throws => rw [hs] at h; cases h
  | ok raw =>
    cases hs' : sym c' j' with
    | ub => exact absurd hs' (sym_ne_ub _ _)
    | throws => simp only [hs, Outcome.bind_ok, syms, hs', Outcome.bind_throws] at h; cases h
    | ok raw' =>
      simp only [hs, Outcome.bind_ok, syms, hs', Outcome.ok.injEq] at h
      refine ⟨by rw [← h, keyOf_of_sym hs, keyOf_of_sym hs'], (sym_ok_iff.1 hs).1, (sym_ok_iff.1 hs').1⟩

/-- A pressure factor for a key beyond all previous ones. -/
theorem gst_createPress {cfg : Cfg} {z : D} {p : Pm} {g : GM Val D} (h : GSt cfg z p g) {k : Int} (hk : p.ba.cp ≤ k)
    (d : D) : ∀ g', createFactor .baro k d g = (.ok (), g') →
      GSt cfg z { p with ba := { p.ba with cp := k + 1, f := some (p.ba.f.getD k) } } g' := by
  intro g' hr
  obtain ⟨vars, hv, rfl⟩ := createFactor_ok hr
  obtain ⟨rfl, h0, -⟩ := syms_two hv
  have hfa := fun j => factorsAt_add h.sorted k j (⟨.plain .baro, [keyOf .X k, keyOf .P k], d⟩ : Factor D)
  refine gst_addFactor h k _ _ ⟨h.baro.vals, ?_, ?_, ?_, ?_⟩
  · intro j
    rw [hfa, List.filter_append, h.baro.walk j]
    by_cases e : j = k <;> simp [e]
  · intro j
    rw [hfa, List.filter_append, List.map_append, h.baro.prior j]
    by_cases e : j = k <;> simp [e]
  · intro j x hx hkind
    rw [hfa] at hx
    rcases List.mem_append.1 hx with hx | hx
    · obtain ⟨e1, e2, e3, f0, e4, e5⟩ := h.baro.press j x hx hkind
      refine ⟨e1, e2, by simp only; omega, f0, by simp [e4], e5⟩
    · by_cases e : j = k
      · subst e
        simp at hx
        subst hx
        refine ⟨rfl, h0, by simp, _, rfl, ?_⟩
        cases hf : p.ba.f with
        | none => simp
        | some f0 =>
          have := h.baro.first f0 hf
          simp
          omega
      · simp [e] at hx
  · intro f0 hf
    simp only [Option.some.injEq] at hf
    cases hf' : p.ba.f with
    | none =>
      rw [hf'] at hf
      simp at hf
      subst hf
      exact ⟨⟨⟨.plain .baro, [keyOf .X k, keyOf .P k], d⟩, by rw [hfa]; simp, rfl⟩, h0, by simp⟩
    | some f1 =>
      rw [hf'] at hf
      simp at hf
      subst hf
      obtain ⟨⟨x, hx, hkind⟩, e2, e3⟩ := h.baro.first f1 hf'
      refine ⟨⟨x, by rw [hfa]; exact List.mem_append_left _ hx, hkind⟩, e2, by simp only; omega⟩

/-- The prior. -/
theorem gst_createPrior {cfg : Cfg} {z : D} {p : Pm} {g : GM Val D} (h : GSt cfg z p g) {k : Int} (hk : p.ba.pf = none)
    (d : D) : ∀ g', createFactor .priorBaro k d g = (.ok (), g') →
      GSt cfg z { p with ba := { p.ba with pf := some k } } g' := by
  intro g' hr
  obtain ⟨vars, hv, rfl⟩ := createFactor_ok hr
  obtain rfl := syms_one hv
  have hfa := fun j => factorsAt_add h.sorted k j (⟨.plain .priorBaro, [keyOf .P k], d⟩ : Factor D)
  refine gst_addFactor h k _ _ ⟨h.baro.vals, ?_, ?_, ?_, ?_⟩
  · intro j
    rw [hfa, List.filter_append, h.baro.walk j]
    by_cases e : j = k <;> simp [e]
  · intro j
    rw [hfa, List.filter_append, List.map_append, h.baro.prior j]
    by_cases e : j = k
    · subst e; simp [hk]
    · have : k ≠ j := fun h => e h.symm
      simp [e, hk, this]
  · intro j x hx hkind
    rw [hfa] at hx
    rcases List.mem_append.1 hx with hx | hx
    · exact h.baro.press j x hx hkind
    · by_cases e : j = k
      · simp [e] at hx; subst hx; simp at hkind
      · simp [e] at hx
  · intro f0 hf
    obtain ⟨⟨x, hx, hkind⟩, e⟩ := h.baro.first f0 hf
    exact ⟨⟨x, by rw [hfa]; exact List.mem_append_left _ hx, hkind⟩, e⟩

/-- The next random walk factor. -/
theorem gst_createWalk {cfg : Cfg} {z : D} {p : Pm} {g : GM Val D} (h : GSt cfg z p g) {k : Int} (hk : p.ba.cw = k)
    (h1 : 1 ≤ k) : ∀ g', createFactor .baroBias k z g = (.ok (), g') →
      GSt cfg z { p with ba := { p.ba with cw := k + 1 } } g' := by
  intro g' hr
  obtain ⟨vars, hv, rfl⟩ := createFactor_ok hr
  obtain ⟨rfl, -, -⟩ := syms_two hv
  have hfa := fun j => factorsAt_add h.sorted k j (⟨.plain .baroBias, [keyOf .P (k - 1), keyOf .P k], z⟩ : Factor D)
  refine gst_addFactor h k _ _ ⟨h.baro.vals, ?_, ?_, ?_, ?_⟩
  · intro j
    rw [hfa, List.filter_append, h.baro.walk j]
    by_cases e : j = k
    · subst e
      have e1 : ¬ (j < p.ba.cw) := by omega
      have e2 : j < j + 1 := by omega
      simp [e1, e2, h1]
    · have : (1 ≤ j ∧ j < p.ba.cw) ↔ (1 ≤ j ∧ j < k + 1) := by omega
      simp [e, this]
  · intro j
    rw [hfa, List.filter_append, List.map_append, h.baro.prior j]
    by_cases e : j = k <;> simp [e]
  · intro j x hx hkind
    rw [hfa] at hx
    rcases List.mem_append.1 hx with hx | hx
    · exact h.baro.press j x hx hkind
    · by_cases e : j = k
      · simp [e] at hx; subst hx; simp at hkind
      · simp [e] at hx
  · intro f0 hf
    obtain ⟨⟨x, hx, hkind⟩, e⟩ := h.baro.first f0 hf
    exact ⟨⟨x, by rw [hfa]; exact List.mem_append_left _ hx, hkind⟩, e⟩

/-- The next bias value. -/
theorem gst_setBias {cfg : Cfg} {z : D} {p : Pm} {g : GM Val D} (h : GSt cfg z p g) {k : Int} (hk : p.ba.cv = k) (v : Val) :
    ∀ g', setBarometerBias k v g = (.ok (), g') → GSt cfg z { p with ba := { p.ba with cv := k + 1 } } g' := by
  intro g' hg'
  unfold setBarometerBias at hg'
  cases hs : sym .P k with
  | ub => exact absurd hs (sym_ne_ub _ _)
  | throws => rw [set_throws g hs] at hg'; cases hg'
  | ok raw =>
    rw [set_ok h.vinv hs] at hg'
    obtain ⟨-, rfl⟩ := Prod.mk.injEq _ _ _ _ ▸ hg'
    have h0 : 0 ≤ k := (sym_ok_iff.1 hs).1
    refine ⟨h.keys, vinv_setState h.vinv hs _ _, h.sorted, h.tsorted, ?_, h.times, h.imu, h.reg, ?_⟩
    · intro j
      rw [hasVal_set h.vinv hs, h.poses j]
      simp
    · refine ⟨?_, h.baro.2, h.baro.3, h.baro.4, h.baro.5⟩
      intro j
      rw [hasVal_set h.vinv hs, h.baro.vals j]
      simp only [true_and]
      omega

end BackEnd

end Serpent
