import Verif.Lemmas.PclCloud
import Verif.Spec.PclCodec

/-!
# Reading and writing fields of pointclouds (C58)
-/

namespace Serpent

namespace Pcl

variable {K : Type} {cd : Codec K} {rep : FT → K → Prop}

/-- C58. Writing a value that the type of the field has succeeds; reading the field of that point (as any type that has the
value) then returns it, all other bytes and the description of the cloud are unchanged. -/
theorem C58_read_after_write (hl : cd.Lawful rep) {c : Cloud} {f : PField} {t : FT} {i : Nat} {v : K} (hw : WellFormed c)
    (ht : HasType c f t) (hi : i < count c) (hv : rep t v) (inT : FT) :
    ∃ c', setFieldData cd inT c f i v = .ok c' ∧ SameMeta c c' ∧ WellFormed c' ∧
      (∀ out, rep out v → fieldData cd out c' f i = .ok v) ∧
      ∀ k, ¬ (i * c.pointStep + f.offset ≤ k ∧ k < i * c.pointStep + f.offset + t.size) → c'.data[k]? = c.data[k]? := by
  have hlen : f.offset + (cd.enc t v).length ≤ c.pointStep := by rw [hl.enc_length]; exact ht.2
  have hw' := putBytes_wellFormed hw hi hlen
  refine ⟨putBytes c i f.offset (cd.enc t v), ?_, rfl, hw', ?_, ?_⟩
  · unfold setFieldData
    rw [setter_ok inT ht.1, Outcome.bind_ok]
    exact writeAs_eq hl inT hw ht hi (castTo_of_rep hl _ hv)
  · intro out ho
    unfold fieldData
    have hval : value cd t (putBytes c i f.offset (cd.enc t v)) f i = v := by
      have := putBytes_same hw hi hlen
      rw [hl.enc_length] at this
      unfold value
      rw [this, hl.dec_enc _ _ hv]
    rw [getter_ok out ht.1, Outcome.bind_ok, readAs_eq out hw' ht hi, hval, castTo_of_rep hl _ ho]
  · intro k hk
    rw [putBytes_getElem? hw hi hlen, hl.enc_length, if_neg hk]

/-- C58. Writing one field of one point leaves the values of the fields without common bytes, and the values of all fields
of the other points, as they were. -/
theorem C58_other_values (hl : cd.Lawful rep) {c c' : Cloud} {f g : PField} {t u : FT} {i j : Nat} {v : K} (hw : WellFormed c)
    (ht : HasType c f t) (hu : HasType c g u) (hi : i < count c) (inT : FT) (hd : i ≠ j ∨ Disjoint f t g u)
    (h : setFieldData cd inT c f i v = .ok c') (out : FT) (hj : j < count c) :
    fieldData cd out c' g j = fieldData cd out c g j := by
  unfold setFieldData at h
  rw [setter_ok inT ht.1, Outcome.bind_ok] at h
  cases hc : castTo cd inT t v with
  | throws => unfold writeAs at h; rw [hc] at h; cases h
  | ub => unfold writeAs at h; rw [hc] at h; cases h
  | ok w =>
    rw [writeAs_eq hl inT hw ht hi hc] at h
    rw [← Outcome.ok.inj h]
    have hlen : f.offset + (cd.enc t w).length ≤ c.pointStep := by rw [hl.enc_length]; exact ht.2
    have hw' := putBytes_wellFormed hw hi hlen
    unfold fieldData
    rw [getter_ok out hu.1, Outcome.bind_ok, Outcome.bind_ok, readAs_eq out hw hu hj]
    have hu' : HasType (putBytes c i f.offset (cd.enc t w)) g u := hu
    have hj' : j < count (putBytes c i f.offset (cd.enc t w)) := hj
    rw [readAs_eq out hw' hu' hj']
    congr 1
    unfold value
    congr 1
    exact putBytes_other hw hi hlen hu.2 (by
      rw [hl.enc_length]
      rcases hd with h | h | h
      · exact .inl h
      · exact .inr (.inl h)
      · exact .inr (.inr h))

/-- C58. Reading a field of type `t` as type `t` never fails, and gives the value that the bytes of the field stand for. -/
theorem C58_read {c : Cloud} {f : PField} {t : FT} {i : Nat} (hw : WellFormed c) (ht : HasType c f t) (hi : i < count c) :
    fieldData cd t c f i = .ok (cd.dec t (((points c)[i]?.getD []).drop f.offset |>.take t.size)) := by
  unfold fieldData
  rw [getter_ok t ht.1, Outcome.bind_ok, readAs_eq t hw ht hi]
  unfold castTo
  rw [if_pos rfl, value_eq_valueIn ht]
  unfold valueIn points
  rw [List.getElem?_map, List.getElem?_range hi]
  rfl

/-- C58. A field whose datatype is none of the eight is refused by readers and writers. -/
theorem C58_unknown_datatype {f : PField} (h : ∀ t : FT, f.datatype ≠ t.code) (T : FT) (c : Cloud) (i : Nat) (v : K) :
    fieldData cd T c f i = .throws ∧ setFieldData cd T c f i v = .throws := by
  have : FT.ofCode f.datatype = none := by
    cases e : FT.ofCode f.datatype with
    | none => rfl
    | some t => exact absurd (ofCode_some e) (h t)
  unfold fieldData setFieldData getter setter
  rw [this]
  exact ⟨rfl, rfl⟩

/-- C58. The readers and writers made for one type `T` are refused iff the field has another datatype; otherwise they are
the same as those that look at the datatype. -/
theorem C58_typed (T t : FT) (f : PField) :
    (getterTyped cd T t f = if f.datatype = t.code then getter cd T f else .throws) ∧
    (setterTyped cd T t f = if f.datatype = t.code then setter cd T f else .throws) := by
  by_cases h : f.datatype = t.code
  · rw [if_pos h, if_pos h, getterTyped_ok T h, getter_ok T h, setterTyped_ok T h, setter_ok T h]
    exact ⟨rfl, rfl⟩
  · rw [if_neg h, if_neg h]
    exact ⟨if_pos (fun e => h e.symm), if_pos (fun e => h e.symm)⟩

/-- C58. `get_field` returns the first field with the name, and throws iff there is none; `has_field` tells which. -/
theorem C58_get_field (c : Cloud) (name : String) :
    (∀ f, getField c name = .ok f ↔
      ∃ before after, c.fields = before ++ f :: after ∧ f.name = name ∧ ∀ g ∈ before, g.name ≠ name) ∧
    (getField c name = .throws ↔ ∀ f ∈ c.fields, f.name ≠ name) ∧
    getField c name ≠ .ub ∧ (hasField c name = true ↔ ∃ f ∈ c.fields, f.name = name) := by
  have hfind : ∀ f, c.fields.find? (fun f => decide (f.name = name)) = some f ↔
      ∃ before after, c.fields = before ++ f :: after ∧ f.name = name ∧ ∀ g ∈ before, g.name ≠ name := by
    intro f
    rw [List.find?_eq_some_iff_append]
    simp only [decide_eq_true_eq, Bool.not_eq_true', decide_eq_false_iff_not]
    constructor
    · rintro ⟨h, b, a, e, hb⟩; exact ⟨b, a, e, h, hb⟩
    · rintro ⟨b, a, e, h, hb⟩; exact ⟨h, b, a, e, hb⟩
  unfold getField hasField
  refine ⟨?_, ?_, ?_, by simp⟩
  · intro f
    rw [← hfind]
    cases c.fields.find? (fun f => decide (f.name = name)) with
    | none => simp
    | some g => simp
  · cases e : c.fields.find? (fun f => decide (f.name = name)) with
    | none => simpa using e
    | some g =>
      simp only [reduceCtorEq, false_iff]
      have := List.find?_some e
      exact fun h => h g (List.mem_of_find?_eq_some e) (by simpa using this)
  · cases c.fields.find? (fun f => decide (f.name = name)) <;> simp

/-- C58. Renaming a field changes the name of the first field with the old name, and nothing else. -/
theorem C58_rename (c : Cloud) (source target : String) :
    (changeFieldName c source target = .throws ↔ ∀ f ∈ c.fields, f.name ≠ source) ∧
    ∀ before f after, c.fields = before ++ f :: after → f.name = source → (∀ g ∈ before, g.name ≠ source) →
      changeFieldName c source target = .ok { c with fields := before ++ { f with name := target } :: after } := by
  obtain ⟨h1, h2, h3, -⟩ := C58_get_field c source
  constructor
  · rw [← h2]
    unfold changeFieldName
    cases e : getField c source with
    | ok f => simp
    | throws => simp
    | ub => exact absurd e h3
  · intro before f after e hn hb
    unfold changeFieldName
    rw [(h1 f).2 ⟨before, after, e, hn, hb⟩, Outcome.bind_ok]
    congr 2
    rw [e]
    clear e
    induction before with
    | nil => simp [updateFirst, hn]
    | cons g gs ih =>
      rw [List.cons_append, updateFirst, if_neg (hb g (by simp)), ih (fun x hx => hb x (by simp [hx]))]
      rfl

/-- C95. The byte order that a cloud declares is not looked at: a field of a cloud whose bytes are declared big endian is read
as if it were little endian. Here the bytes 1, 0 of a 16 bit field stand for 256, and 1 is read. -/
theorem C95_fails :
    ∃ (c : Cloud) (f : PField), WellFormed c ∧ HasType c f .uint16 ∧ count c = 1 ∧ c.isBigendian = true ∧
      Ieee.leNat (bytesAt c 0 f.offset 2).reverse = 256 ∧
      fieldData Ieee.codec .uint16 c f 0 = .ok 1 := by
  refine ⟨⟨⟨0, 0, ""⟩, 1, 1, [⟨"a", 0, 4, 1⟩], true, 2, 2, [1, 0], true⟩, ⟨"a", 0, 4, 1⟩,
    ⟨rfl, rfl, by decide, by decide⟩, ⟨rfl, by decide⟩, rfl, rfl, by decide, ?_⟩
  unfold fieldData
  rw [getter_ok (t := .uint16) _ rfl, Outcome.bind_ok]
  unfold readAs
  rw [readBytes_ok (by decide), Outcome.bind_ok]
  unfold castTo
  rw [if_pos rfl]
  show Outcome.ok (Ieee.dec .uint16 [1, 0]) = _
  congr 1

/-- C95 (what holds). On clouds that declare the byte order of the machine, the number read from an unsigned field is the one
that its bytes stand for in the declared order. -/
theorem C95_little_endian_partial {c : Cloud} {f : PField} {i : Nat} (hw : WellFormed c) (hi : i < count c) :
    (HasType c f .uint8 → fieldData Ieee.codec .uint8 c f i = .ok (Ieee.leNat (bytesAt c i f.offset 1) : ℚ)) ∧
    (HasType c f .uint16 → fieldData Ieee.codec .uint16 c f i = .ok (Ieee.leNat (bytesAt c i f.offset 2) : ℚ)) ∧
    (HasType c f .uint32 → fieldData Ieee.codec .uint32 c f i = .ok (Ieee.leNat (bytesAt c i f.offset 4) : ℚ)) := by
  refine ⟨fun ht => ?_, fun ht => ?_, fun ht => ?_⟩ <;>
  · unfold fieldData
    rw [getter_ok _ ht.1, Outcome.bind_ok, readAs_eq _ hw ht hi]
    unfold castTo
    rw [if_pos rfl]
    rfl

/-- A cloud of two points with a field `a` of type `uint16`, padding, and a field `b` of type `uint8`. -/
def twoPoints : Cloud :=
  ⟨⟨0, 0, "lidar"⟩, 1, 2, [⟨"a", 0, 4, 1⟩, ⟨"b", 3, 2, 1⟩], false, 4, 8, [1, 2, 0, 3, 5, 0, 0, 7], true⟩

/-- The hypotheses of the theorems above are met. -/
theorem twoPoints_meets : WellFormed twoPoints ∧ HasType twoPoints ⟨"a", 0, 4, 1⟩ .uint16 ∧ count twoPoints = 2 ∧
    HasType twoPoints ⟨"b", 3, 2, 1⟩ .uint8 ∧ Disjoint ⟨"a", 0, 4, 1⟩ .uint16 ⟨"b", 3, 2, 1⟩ .uint8 ∧
    Ieee.codec.Lawful Ieee.rep ∧ Ieee.rep .uint16 513 :=
  ⟨⟨rfl, rfl, by decide, by decide⟩, ⟨rfl, by decide⟩, rfl, ⟨rfl, by decide⟩, .inl (by decide), Ieee.lawful,
    ⟨[1, 2], rfl, by decide +kernel⟩⟩

example : getField twoPoints "b" = .ok ⟨"b", 3, 2, 1⟩ ∧ getField twoPoints "c" = .throws ∧ hasField twoPoints "a" = true := by
  decide +kernel

end Pcl

end Serpent
