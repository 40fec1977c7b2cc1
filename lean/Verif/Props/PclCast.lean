import Verif.Props.PclFields
import Mathlib.Tactic.Ring

/-!
# Casting and scaling fields of pointclouds (C62)
-/

namespace Serpent

namespace Pcl

open EigenRos (forLoop forLoop_inv forLoop_succ)

variable {K : Type} {cd : Codec K} {rep : FT → K → Prop}

/-- `c'` is `c`, except that the values of field `f` are now those of `w`, as values of type `u`: the description of the
cloud is the same apart from the list of fields, and so are all bytes outside of the field. -/
structure Rewritten (cd : Codec K) (c : Cloud) (f : PField) (u : FT) (w : Nat → K) (c' : Cloud) : Prop where
  descr : { c' with fields := c.fields, data := c.data } = c
  wellFormed : WellFormed c'
  values : ∀ i < count c, value cd u c' f i = w i
  others : ∀ i < count c, ∀ o < c.pointStep, ¬ (f.offset ≤ o ∧ o < f.offset + u.size) →
    c'.data[i * c.pointStep + o]? = c.data[i * c.pointStep + o]?

/-- The loop over the points. -/
theorem mapField_ok (hl : cd.Lawful rep) {c : Cloud} {f : PField} {t u T T' : FT} {g : K → K} {w : Nat → K} (hw : WellFormed c)
    (ht : HasType c f t) (hs : t.size = u.size)
    (hread : ∀ i < count c, ∃ v, castTo cd t T (value cd t c f i) = .ok v ∧ castTo cd T' u (g v) = .ok (w i) ∧ rep u (w i)) :
    ∃ c', mapField (readAs cd T t f.offset) (writeAs cd T' u f.offset) g c = .ok c' ∧ c'.fields = c.fields ∧
      Rewritten cd c f u w c' := by
  unfold mapField
  rw [hw.sizePoints]
  have hstep := ht.2
  obtain ⟨c', h, h1, h2, h3, h4, h5⟩ := forLoop_inv (fun k (c' : Cloud) =>
      { c' with data := c.data } = c ∧ WellFormed c' ∧ (∀ i < k, value cd u c' f i = w i) ∧
      (∀ i, k ≤ i → i < count c → bytesAt c' i f.offset t.size = bytesAt c i f.offset t.size) ∧
      (∀ i < count c, ∀ o < c.pointStep, ¬ (f.offset ≤ o ∧ o < f.offset + u.size) →
        c'.data[i * c.pointStep + o]? = c.data[i * c.pointStep + o]?))
    (n := count c) (body := fun i c => readAs cd T t f.offset c i >>= fun v => writeAs cd T' u f.offset c i (g v)) (s := c)
    ⟨rfl, hw, fun i hi => by omega, fun i _ _ => rfl, fun i _ o _ _ => rfl⟩ (by
    rintro k d hk ⟨h1, h2, h3, h4, h5⟩
    have hps : d.pointStep = c.pointStep := by have := congrArg Cloud.pointStep h1; exact this
    have hcnt : count d = count c := by
      have a := congrArg Cloud.height h1
      have b := congrArg Cloud.width h1
      unfold count
      exact congrArg₂ _ a b
    have htd : HasType d f t := ⟨ht.1, by rw [hps]; exact ht.2⟩
    have htu : HasType d { f with datatype := u.code } u := ⟨rfl, by rw [hps]; show f.offset + u.size ≤ _; omega⟩
    obtain ⟨v, hv1, hv2, hv3⟩ := hread k hk
    have hval : value cd t d f k = value cd t c f k := by unfold value; rw [h4 k le_rfl hk]
    have hkd : k < count d := by omega
    rw [readAs_eq T h2 htd hkd, hval, hv1, Outcome.bind_ok]
    have hwr := writeAs_eq hl T' h2 htu hkd hv2
    refine ⟨_, hwr, ?_, ?_, ?_, ?_, ?_⟩
    · exact h1
    · exact putBytes_wellFormed h2 hkd (by rw [hl.enc_length]; exact htu.2)
    · intro i hi
      have ho : f.offset + (cd.enc u (w k)).length ≤ d.pointStep := by rw [hl.enc_length]; exact htu.2
      by_cases hik : i = k
      · subst hik
        have := putBytes_same h2 hkd ho
        rw [hl.enc_length] at this
        unfold value
        show cd.dec u (bytesAt (putBytes d i f.offset (cd.enc u (w i))) i f.offset u.size) = _
        rw [this, hl.dec_enc _ _ hv3]
      · have hlt : i < k := by omega
        rw [← h3 i hlt]
        unfold value
        congr 1
        exact putBytes_other h2 hkd ho htu.2 (.inl (by omega))
    · intro i hi1 hi2
      rw [← h4 i (by omega) hi2]
      exact putBytes_other h2 hkd (by rw [hl.enc_length]; exact htu.2) htd.2 (.inl (by omega))
    · intro i hi o ho hno
      rw [← h5 i hi o ho hno]
      show (putBytes d k f.offset (cd.enc u (w k))).data[i * c.pointStep + o]? = _
      rw [putBytes_getElem? h2 hkd (by rw [hl.enc_length]; exact htu.2), hl.enc_length, hps, if_neg]
      rintro ⟨ha, hb⟩
      rcases Nat.lt_trichotomy i k with hlt | rfl | hlt
      · have : (i + 1) * c.pointStep ≤ k * c.pointStep := Nat.mul_le_mul_right _ hlt
        rw [Nat.add_mul, Nat.one_mul] at this
        omega
      · omega
      · have : (k + 1) * c.pointStep ≤ i * c.pointStep := Nat.mul_le_mul_right _ hlt
        rw [Nat.add_mul, Nat.one_mul] at this
        omega)
  refine ⟨c', h, by have := congrArg Cloud.fields h1; exact this, ⟨?_, h2, h3, h5⟩⟩
  have hf : c'.fields = c.fields := by have := congrArg Cloud.fields h1; exact this
  rw [← hf]
  exact h1

theorem sameBitDepth (type t : FT) : isSameBitDepth type t.code = .ok (decide (t.size = type.size)) := by
  cases type <;> cases t <;> rfl

/-- The first field with a name is `f`. -/
def FirstNamed (c : Cloud) (name : String) (f : PField) : Prop :=
  ∃ before after, c.fields = before ++ f :: after ∧ f.name = name ∧ ∀ g ∈ before, g.name ≠ name

theorem updateFirst_eq {before after : List PField} {f : PField} {name : String} (g : PField → PField)
    (hn : f.name = name) (hb : ∀ g ∈ before, g.name ≠ name) :
    updateFirst name g (before ++ f :: after) = before ++ g f :: after := by
  induction before with
  | nil => simp [updateFirst, hn]
  | cons a as ih =>
    rw [List.cons_append, updateFirst, if_neg (hb a (by simp)), ih (fun x hx => hb x (by simp [hx]))]
    rfl

theorem getField_first {c : Cloud} {name : String} {f : PField} (h : FirstNamed c name f) : getField c name = .ok f :=
  ((C58_get_field c name).1 f).2 h

/-- C62. Casting a field to another type of the same size replaces the value of each point by its conversion to that type,
records the new type, and changes nothing else. -/
theorem C62_cast (hl : cd.Lawful rep) {c : Cloud} {name : String} {before after : List PField} {f : PField} {t type : FT}
    {w : Nat → K} (hw : WellFormed c) (hfields : c.fields = before ++ f :: after) (hname : f.name = name)
    (hfirst : ∀ g ∈ before, g.name ≠ name) (ht : HasType c f t) (hsize : t.size = type.size)
    (hcast : ∀ i < count c, castTo cd t type (value cd t c f i) = .ok (w i)) :
    ∃ c', castField cd type c name = .ok c' ∧ Rewritten cd c f type w c' ∧
      c'.fields = before ++ { f with datatype := type.code } :: after := by
  unfold castField
  rw [getField_first ⟨before, after, hfields, hname, hfirst⟩, Outcome.bind_ok, ht.1, sameBitDepth, Outcome.bind_ok,
    if_neg (by simp [hsize])]
  by_cases e : t = type
  · subst e
    rw [if_neg (by simp)]
    refine ⟨c, rfl, ⟨rfl, hw, ?_, fun i _ o _ _ => rfl⟩, ?_⟩
    · intro i hi
      have := hcast i hi
      unfold castTo at this
      rw [if_pos rfl] at this
      exact Outcome.ok.inj this
    · rw [hfields, ← ht.1]
  · rw [if_pos (fun h => e (code_inj h)), getter_ok type ht.1, Outcome.bind_ok]
    dsimp only
    rw [setterTyped_ok (t := type) type rfl, Outcome.bind_ok]
    have hu := updateFirst_eq (before := before) (after := after) (fun f => { f with datatype := type.code }) hname hfirst
    rw [hfields, hu]
    set c1 : Cloud := { c with fields := before ++ { f with datatype := type.code } :: after } with hc1
    have hw1 : WellFormed c1 := ⟨hw.row, hw.length, hw.bytes, hw.points⟩
    obtain ⟨c', h, hf, hr⟩ := mapField_ok (c := c1) (f := f) (t := t) (u := type) (T := type) (T' := type) (g := id) (w := w) hl
      hw1 ht hsize (fun i hi => ⟨w i, hcast i hi, by unfold castTo; rw [if_pos rfl]; rfl,
        castTo_rep hl (value_rep hl hw ht hi) (hcast i hi)⟩)
    refine ⟨c', h, ⟨?_, hr.wellFormed, hr.values, hr.others⟩, hf⟩
    have := hr.descr
    exact congrArg (fun x : Cloud => { x with fields := c.fields }) this

/-- C62. Casting throws if there is no field with the name, its datatype is unknown, or the sizes of the types differ
(`C62_cast_throws_iff`: only then). -/
theorem C62_cast_throws {c : Cloud} {name : String} {type : FT} [Mul K] (scale : K)
    (h : (∀ f ∈ c.fields, f.name ≠ name) ∨ (∃ f, FirstNamed c name f ∧ ∀ t : FT, f.datatype = t.code → t.size ≠ type.size)) :
    castField cd type c name = .throws ∧ castFieldWithScale cd type c name scale = .throws := by
  rcases h with h | ⟨f, hf, ht⟩
  · have := (C58_get_field c name).2.1.2 h
    unfold castField castFieldWithScale
    rw [this]
    exact ⟨rfl, rfl⟩
  · unfold castField castFieldWithScale
    rw [getField_first hf, Outcome.bind_ok, Outcome.bind_ok]
    cases e : FT.ofCode f.datatype with
    | none =>
      unfold isSameBitDepth
      rw [e]
      exact ⟨rfl, rfl⟩
    | some t =>
      have hd := ofCode_some e
      rw [hd, sameBitDepth, Outcome.bind_ok, Outcome.bind_ok, if_pos (by simpa using ht t hd), if_pos (by simpa using ht t hd)]
      exact ⟨rfl, rfl⟩

theorem forLoop_ne_throws {σ : Type} (n : Nat) (body : Nat → σ → Outcome σ) (h : ∀ i s, body i s ≠ .throws) (s : σ) :
    forLoop n body s ≠ .throws := by
  induction n generalizing s with
  | zero => rw [EigenRos.forLoop_zero]; intro e; cases e
  | succ n ih =>
    rw [EigenRos.forLoop_succ]
    cases e : forLoop n body s with
    | throws => exact absurd e (ih s)
    | ub => intro k; cases k
    | ok s' => exact h n s'

theorem mapField_ne_throws (hc : ∀ a b v, cd.cast a b v ≠ .throws) (out t u inT : FT) (o o' : Nat) (g : K → K) (c : Cloud) :
    mapField (readAs cd out t o) (writeAs cd inT u o') g c ≠ .throws := by
  have hcast : ∀ a b v, castTo cd a b v ≠ .throws := by
    intro a b v
    unfold castTo
    split
    · intro e; cases e
    · exact hc a b v
  unfold mapField
  refine forLoop_ne_throws _ _ (fun i c e => ?_) _
  unfold readAs writeAs at e
  unfold readBytes at e
  split at e
  · rw [Outcome.bind_ok] at e
    cases e1 : castTo cd t out (cd.dec t ((c.data.drop (i * c.pointStep + o)).take t.size)) with
    | throws => exact hcast _ _ _ e1
    | ub => rw [e1] at e; cases e
    | ok v =>
      rw [e1, Outcome.bind_ok] at e
      cases e2 : castTo cd inT u (g v) with
      | throws => exact hcast _ _ _ e2
      | ub => rw [e2] at e; cases e
      | ok w =>
        rw [e2, Outcome.bind_ok] at e
        unfold writeBytes at e
        split at e
        · rw [Outcome.bind_ok] at e; cases e
        · cases e
  · cases e

/-- C62. Casting throws iff there is no field with the name, its datatype is unknown, or the sizes of the types differ. (A
`static_cast` does not throw.) -/
theorem C62_cast_throws_iff (hc : ∀ a b v, cd.cast a b v ≠ .throws) {c : Cloud} {name : String} {type : FT} [Mul K] (scale : K) :
    (castField cd type c name = .throws ↔
      (∀ f ∈ c.fields, f.name ≠ name) ∨ (∃ f, FirstNamed c name f ∧ ∀ t : FT, f.datatype = t.code → t.size ≠ type.size)) ∧
    (castFieldWithScale cd type c name scale = .throws ↔
      (∀ f ∈ c.fields, f.name ≠ name) ∨ (∃ f, FirstNamed c name f ∧ ∀ t : FT, f.datatype = t.code → t.size ≠ type.size)) := by
  by_cases h : (∀ f ∈ c.fields, f.name ≠ name) ∨ (∃ f, FirstNamed c name f ∧ ∀ t : FT, f.datatype = t.code → t.size ≠ type.size)
  · have := C62_cast_throws (cd := cd) scale h
    exact ⟨⟨fun _ => h, fun _ => this.1⟩, ⟨fun _ => h, fun _ => this.2⟩⟩
  · suffices k : castField cd type c name ≠ .throws ∧ castFieldWithScale cd type c name scale ≠ .throws from
      ⟨⟨fun e => absurd e k.1, fun e => absurd e h⟩, ⟨fun e => absurd e k.2, fun e => absurd e h⟩⟩
    rw [not_or] at h
    obtain ⟨h1, h2⟩ := h
    have hg : getField c name ≠ .throws := fun e => h1 ((C58_get_field c name).2.1.1 e)
    cases e : getField c name with
    | throws => exact absurd e hg
    | ub => exact absurd e (C58_get_field c name).2.2.1
    | ok f =>
      have hf : FirstNamed c name f := ((C58_get_field c name).1 f).1 e
      have : ∃ t : FT, f.datatype = t.code ∧ t.size = type.size := by
        by_contra hn
        exact h2 ⟨f, hf, fun t ht hs => hn ⟨t, ht, hs⟩⟩
      obtain ⟨t, ht, hs⟩ := this
      have hsame : isSameBitDepth type f.datatype = .ok true := by rw [ht, sameBitDepth]; simp [hs]
      constructor
      · unfold castField
        rw [e, Outcome.bind_ok, hsame, Outcome.bind_ok, if_neg (by simp)]
        split
        · rw [getter_ok type ht, Outcome.bind_ok]
          dsimp only
          rw [setterTyped_ok (t := type) type rfl, Outcome.bind_ok]
          exact mapField_ne_throws hc _ _ _ _ _ _ _ _
        · intro k; cases k
      · unfold castFieldWithScale
        rw [e, Outcome.bind_ok, hsame, Outcome.bind_ok, if_neg (by simp)]
        split
        · rw [getter_ok .float64 ht, Outcome.bind_ok]
          dsimp only
          rw [setterTyped_ok (t := type) .float64 rfl, Outcome.bind_ok]
          exact mapField_ne_throws hc _ _ _ _ _ _ _ _
        · intro k; cases k

section

variable [Mul K]

/-- C62. `scale_field` replaces each value by its product with the scale, computed as `double` and converted to the type of the
field, and changes nothing else. -/
theorem C62_scale (hl : cd.Lawful rep) {c : Cloud} {f : PField} {t : FT} {scale : K} {w : Nat → K} (hw : WellFormed c)
    (ht : HasType c f t) (hdouble : ∀ i < count c, rep .float64 (value cd t c f i))
    (hcast : ∀ i < count c, castTo cd .float64 t (value cd t c f i * scale) = .ok (w i) ∧ rep t (w i)) :
    ∃ c', scaleField cd c f scale = .ok c' ∧ Rewritten cd c f t w c' ∧ c'.fields = c.fields := by
  unfold scaleField
  rw [getter_ok _ ht.1, Outcome.bind_ok, setter_ok _ ht.1, Outcome.bind_ok]
  obtain ⟨c', h, hf, hr⟩ := mapField_ok (T := .float64) (T' := .float64) (g := (· * scale)) (w := w) hl hw ht rfl
    (fun i hi => ⟨value cd t c f i, castTo_of_rep hl _ (hdouble i hi), hcast i hi⟩)
  exact ⟨c', h, hr, hf⟩

/-- C62. `scale_field` by name scales the first field with the name. -/
theorem C62_scale_named {c : Cloud} {name : String} (scale : K) :
    (∀ f, FirstNamed c name f → scaleFieldNamed cd c name scale = scaleField cd c f scale) ∧
    ((∀ f ∈ c.fields, f.name ≠ name) → scaleFieldNamed cd c name scale = .throws) := by
  constructor
  · intro f hf
    unfold scaleFieldNamed
    rw [getField_first hf, Outcome.bind_ok]
  · intro h
    unfold scaleFieldNamed
    rw [(C58_get_field c name).2.1.2 h]
    rfl

/-- C62 (what holds). Casting with a scale to *another* type of the same size replaces each value by its product with the
scale, computed as `double` and converted to the new type, records the new type, and changes nothing else. Missing: the
requested type may be the one that the field already has. -/
theorem C62_cast_with_scale_partial (hl : cd.Lawful rep) {c : Cloud} {name : String} {before after : List PField} {f : PField}
    {t type : FT} {scale : K} {w : Nat → K} (hw : WellFormed c) (hfields : c.fields = before ++ f :: after)
    (hname : f.name = name) (hfirst : ∀ g ∈ before, g.name ≠ name) (ht : HasType c f t) (hsize : t.size = type.size)
    (hne : t ≠ type) (hdouble : ∀ i < count c, rep .float64 (value cd t c f i))
    (hcast : ∀ i < count c, castTo cd .float64 type (value cd t c f i * scale) = .ok (w i) ∧ rep type (w i)) :
    ∃ c', castFieldWithScale cd type c name scale = .ok c' ∧ Rewritten cd c f type w c' ∧
      c'.fields = before ++ { f with datatype := type.code } :: after := by
  unfold castFieldWithScale
  rw [getField_first ⟨before, after, hfields, hname, hfirst⟩, Outcome.bind_ok, ht.1, sameBitDepth, Outcome.bind_ok,
    if_neg (by simp [hsize]), if_pos (fun h => hne (code_inj h)), getter_ok _ ht.1, Outcome.bind_ok]
  dsimp only
  rw [setterTyped_ok (t := type) _ rfl, Outcome.bind_ok]
  have hu := updateFirst_eq (before := before) (after := after) (fun f => { f with datatype := type.code }) hname hfirst
  rw [hfields, hu]
  set c1 : Cloud := { c with fields := before ++ { f with datatype := type.code } :: after } with hc1
  have hw1 : WellFormed c1 := ⟨hw.row, hw.length, hw.bytes, hw.points⟩
  obtain ⟨c', h, hf, hr⟩ := mapField_ok (c := c1) (f := f) (t := t) (u := type) (T := .float64) (T' := .float64)
    (g := (· * scale)) (w := w) hl hw1 ht hsize (fun i hi => ⟨value cd t c f i, castTo_of_rep hl _ (hdouble i hi), hcast i hi⟩)
  refine ⟨c', h, ⟨?_, hr.wellFormed, hr.values, hr.others⟩, hf⟩
  exact congrArg (fun x : Cloud => { x with fields := c.fields }) hr.descr

/-- C62 fails when the field already has the requested type: the scale is then ignored, whatever it is. -/
theorem C62_fails_same_type {c : Cloud} {name : String} {f : PField} {type : FT} (hf : FirstNamed c name f)
    (ht : f.datatype = type.code) (scale : K) : castFieldWithScale cd type c name scale = .ok c := by
  unfold castFieldWithScale
  rw [getField_first hf, Outcome.bind_ok, ht, sameBitDepth, Outcome.bind_ok, if_neg (by simp), if_neg (by simp)]

/-- C62 fails for `scale_and_cast_field`: the requested type is ignored, the field keeps its type. -/
theorem C62_fails_scale_and_cast (type type' : FT) (c : Cloud) (f : PField) (scale : K) :
    scaleAndCastField cd type c f scale = scaleAndCastField cd type' c f scale := rfl

end

/-- Representation of small numbers as `double`. -/
theorem rep_float64_small : Ieee.rep .float64 1 ∧ Ieee.rep .float64 3 ∧ Ieee.rep .float64 7 :=
  ⟨⟨[0, 0, 0, 0, 0, 0, 240, 63], rfl, by decide +kernel⟩, ⟨[0, 0, 0, 0, 0, 0, 8, 64], rfl, by decide +kernel⟩,
    ⟨[0, 0, 0, 0, 0, 0, 28, 64], rfl, by decide +kernel⟩⟩

/-- The hypotheses of `C62_scale` are met: field `b` of two points, multiplied by 2. -/
example : ∃ c', scaleField Ieee.codec twoPoints ⟨"b", 3, 2, 1⟩ 2 = .ok c' ∧
    value Ieee.codec .uint8 c' ⟨"b", 3, 2, 1⟩ 0 = 6 ∧ value Ieee.codec .uint8 c' ⟨"b", 3, 2, 1⟩ 1 = 14 := by
  obtain ⟨hw, -, hc, ht, -⟩ := twoPoints_meets
  have v0 : value Ieee.codec .uint8 twoPoints ⟨"b", 3, 2, 1⟩ 0 = 3 := by decide +kernel
  have v1 : value Ieee.codec .uint8 twoPoints ⟨"b", 3, 2, 1⟩ 1 = 7 := by decide +kernel
  have r6 : Ieee.rep .uint8 6 := ⟨[6], rfl, by decide +kernel⟩
  have r14 : Ieee.rep .uint8 14 := ⟨[14], rfl, by decide +kernel⟩
  obtain ⟨c', h, hr, -⟩ := C62_scale (scale := 2) (w := fun i => if i = 0 then 6 else 14) Ieee.lawful hw ht
    (by
      intro i hi
      rw [hc] at hi
      have : i = 0 ∨ i = 1 := by omega
      rcases this with rfl | rfl
      · rw [v0]; exact rep_float64_small.2.1
      · rw [v1]; exact rep_float64_small.2.2)
    (by
      intro i hi
      rw [hc] at hi
      have : i = 0 ∨ i = 1 := by omega
      rcases this with rfl | rfl
      · rw [v0, show (3 : ℚ) * 2 = 6 by norm_num, castTo_of_rep Ieee.lawful _ r6]
        exact ⟨rfl, r6⟩
      · rw [v1, show (7 : ℚ) * 2 = 14 by norm_num, castTo_of_rep Ieee.lawful _ r14]
        exact ⟨rfl, r14⟩)
  exact ⟨c', h, hr.values 0 (by rw [hc]; decide), hr.values 1 (by rw [hc]; decide)⟩

/-- C62 fails for fields with several elements per point: only the first element of each point is scaled. -/
theorem C62_fails_elements :
    ∃ (c c' : Cloud) (f : PField), WellFormed c ∧ count c = 1 ∧ f.datatype = 2 ∧ f.count = 2 ∧ f.offset = 0 ∧ c.data = [1, 9] ∧
      scaleField Ieee.codec c f 3 = .ok c' ∧ c'.data = [3, 9] := by
  have hw : WellFormed ⟨⟨0, 0, ""⟩, 1, 1, [⟨"a", 0, 2, 2⟩], false, 2, 2, [1, 9], true⟩ := ⟨rfl, rfl, by decide, by decide⟩
  have ht : HasType ⟨⟨0, 0, ""⟩, 1, 1, [⟨"a", 0, 2, 2⟩], false, 2, 2, [1, 9], true⟩ ⟨"a", 0, 2, 2⟩ .uint8 := ⟨rfl, by decide⟩
  have r3 : Ieee.rep .uint8 3 := ⟨[3], rfl, by decide +kernel⟩
  refine ⟨⟨⟨0, 0, ""⟩, 1, 1, [⟨"a", 0, 2, 2⟩], false, 2, 2, [1, 9], true⟩,
    ⟨⟨0, 0, ""⟩, 1, 1, [⟨"a", 0, 2, 2⟩], false, 2, 2, [3, 9], true⟩, ⟨"a", 0, 2, 2⟩, hw, rfl, rfl, rfl, rfl, rfl, ?_, rfl⟩
  unfold scaleField
  rw [getter_ok _ ht.1, Outcome.bind_ok, setter_ok _ ht.1, Outcome.bind_ok]
  unfold mapField
  show forLoop 1 _ _ = _
  rw [forLoop_succ, EigenRos.forLoop_zero, Outcome.bind_ok, readAs_eq _ hw ht (by decide)]
  have v0 : value Ieee.codec .uint8 ⟨⟨0, 0, ""⟩, 1, 1, [⟨"a", 0, 2, 2⟩], false, 2, 2, [1, 9], true⟩ ⟨"a", 0, 2, 2⟩ 0 = 1 := by
    decide +kernel
  rw [v0, castTo_of_rep Ieee.lawful _ rep_float64_small.1, Outcome.bind_ok,
    writeAs_eq Ieee.lawful _ (w := 3) hw ht (by decide) (by show castTo _ _ _ ((1 : ℚ) * 3) = _; rw [one_mul]; exact castTo_of_rep Ieee.lawful _ r3)]
  have : Ieee.codec.enc .uint8 3 = [3] := by decide +kernel
  rw [this]
  rfl

/-- C62 fails on a concrete cloud: casting a field of type `uint8` to `uint8` with scale 2 leaves the value 3. -/
theorem C62_fails_same_type_witness :
    castFieldWithScale Ieee.codec .uint8 twoPoints "b" 2 = .ok twoPoints ∧
      value Ieee.codec .uint8 twoPoints ⟨"b", 3, 2, 1⟩ 0 = 3 := by
  refine ⟨C62_fails_same_type (f := ⟨"b", 3, 2, 1⟩) ⟨[⟨"a", 0, 4, 1⟩], [], rfl, rfl, by decide⟩ rfl _, by decide +kernel⟩

/-- The hypotheses of `C62_cast` are met: field `b` cast to `int8`. -/
example : ∃ c', castField Ieee.codec .int8 twoPoints "b" = .ok c' ∧ c'.fields = [⟨"a", 0, 4, 1⟩, ⟨"b", 3, 1, 1⟩] ∧
    value Ieee.codec .int8 c' ⟨"b", 3, 2, 1⟩ 1 = 7 := by
  obtain ⟨hw, -, hc, ht, -⟩ := twoPoints_meets
  have v0 : value Ieee.codec .uint8 twoPoints ⟨"b", 3, 2, 1⟩ 0 = 3 := by decide +kernel
  have v1 : value Ieee.codec .uint8 twoPoints ⟨"b", 3, 2, 1⟩ 1 = 7 := by decide +kernel
  obtain ⟨c', h, hr, hf⟩ := C62_cast (type := .int8) (name := "b") (before := [⟨"a", 0, 4, 1⟩]) (after := [])
    (w := fun i => if i = 0 then 3 else 7) Ieee.lawful hw rfl rfl (by decide) ht rfl
    (by
      intro i hi
      rw [hc] at hi
      have : i = 0 ∨ i = 1 := by omega
      rcases this with rfl | rfl
      · rw [v0]; exact castTo_of_rep Ieee.lawful _ ⟨[3], rfl, by decide +kernel⟩
      · rw [v1]; exact castTo_of_rep Ieee.lawful _ ⟨[7], rfl, by decide +kernel⟩)
  exact ⟨c', h, hf, hr.values 1 (by rw [hc]; decide)⟩

end Pcl

end Serpent
