import Verif.Props.PclFields

/-!
# `filter_max` (C57)
-/

namespace Serpent

namespace Pcl

open EigenRos (forLoop forLoop_inv)

variable {K : Type} {cd : Codec K} {rep : FT → K → Prop}

/-- Cutting the concatenation of pieces of equal length. -/
theorem cut_flatten {s : Nat} (l : List (List UInt8)) (hl : ∀ x ∈ l, x.length = s) :
    (List.range l.length).map (fun i => (l.flatten.drop (i * s)).take s) = l := by
  induction l with
  | nil => rfl
  | cons x xs ih =>
    have hx : x.length = s := hl x (by simp)
    rw [List.length_cons, List.range_succ_eq_map, List.map_cons, List.map_map]
    congr 1
    · rw [Nat.zero_mul, List.drop_zero, List.flatten_cons, List.take_append_of_le_length (by omega), ← hx, List.take_length]
    · refine Eq.trans (List.map_congr_left fun i _ => ?_) (ih fun y hy => hl y (by simp [hy]))
      rw [Function.comp_apply, List.flatten_cons]
      have : (i.succ) * s = x.length + i * s := by rw [hx, Nat.succ_eq_add_one]; ring
      rw [this, List.drop_append, List.drop_eq_nil_of_le (by omega), List.nil_append]
      congr 2
      omega

theorem flatten_length {s : Nat} (l : List (List UInt8)) (hl : ∀ x ∈ l, x.length = s) : l.flatten.length = l.length * s := by
  induction l with
  | nil => simp
  | cons x xs ih =>
    rw [List.flatten_cons, List.length_append, ih (fun y hy => hl y (by simp [hy])), hl x (by simp), List.length_cons]
    ring

theorem points_length (c : Cloud) : (points c).length = count c := by simp [points]

theorem points_getElem? {c : Cloud} {i : Nat} (h : i < count c) : (points c)[i]? = some (bytesAt c i 0 c.pointStep) := by
  unfold points
  rw [List.getElem?_map, List.getElem?_range h]
  rfl

theorem point_length {c : Cloud} (hw : WellFormed c) {x : List UInt8} (h : x ∈ points c) : x.length = c.pointStep := by
  obtain ⟨i, hi, rfl⟩ := List.mem_map.1 h
  exact slice_length (hw.index (List.mem_range.1 hi) (by omega))

/-- State of the loop of `filter_max` after the first `i` points. -/
structure Filtered (src dest0 : Cloud) (p : List UInt8 → Bool) (i : Nat) (dest : Cloud) : Prop where
  descr : dest = { dest0 with width := dest.width, data := dest.data }
  width : dest.width = (((points src).take i).filter p).length
  length : dest.data.length = src.data.length
  data : dest.data.take (dest.width * src.pointStep) = (((points src).take i).filter p).flatten

theorem filterStep_inv {src dest0 dest : Cloud} {f : PField} {t T : FT} {le : K → K → Bool} {max : K} {num : List UInt8 → K} {i : Nat}
    (hw : WellFormed src) (ht : HasType src f t) (hd : dest0.pointStep = src.pointStep)
    (hnum : ∀ pt ∈ points src, castTo cd t T (valueIn cd t f.offset pt) = .ok (num pt)) (hi : i < count src)
    (h : Filtered src dest0 (fun pt => le (num pt) max) i dest) :
    ∃ dest', filterStep (readAs cd T t f.offset) le max src i dest = .ok dest' ∧
      Filtered src dest0 (fun pt => le (num pt) max) (i + 1) dest' := by
  have hpt := points_getElem? hi
  have hmem : bytesAt src i 0 src.pointStep ∈ points src := List.mem_of_getElem? hpt
  have hlen := points_length src
  have htake : (points src).take (i + 1) = (points src).take i ++ [bytesAt src i 0 src.pointStep] := by
    rw [List.take_add_one, hpt]; rfl
  have hstep : dest.pointStep = src.pointStep := (congrArg Cloud.pointStep h.descr).trans hd
  have hsp : 0 < src.pointStep := by have := ht.2; have := size_pos t; omega
  have hwi : dest.width ≤ i := by
    rw [h.width]
    refine (List.length_filter_le _ _).trans ?_
    rw [List.length_take]
    omega
  unfold filterStep
  rw [readAs_eq T hw ht hi, value_eq_valueIn ht, hnum _ hmem, Outcome.bind_ok]
  by_cases hle : le (num (bytesAt src i 0 src.pointStep)) max = true
  · rw [if_pos hle]
    have hkeep : [bytesAt src i 0 src.pointStep].filter (fun pt => le (num pt) max) = [bytesAt src i 0 src.pointStep] := by
      simp [hle]
    have hidx := hw.index hi (o := 0) (m := src.pointStep) (by omega)
    have hbound : dest.width * src.pointStep + src.pointStep ≤ dest.data.length := by
      rw [h.length, hw.length_eq]
      exact index_le (o := 0) (lt_of_le_of_lt hwi hi) (by omega)
    have hlt : dest.width * src.pointStep < 2 ^ 32 := by
      have := hw.bytes; rw [h.length] at hbound; omega
    have hwlt : dest.width + 1 < 2 ^ 32 + 1 := by
      have := hw.points
      have : dest.width < count src := lt_of_le_of_lt hwi hi
      unfold count at this
      omega
    have hwlt' : dest.width + 1 < 2 ^ 32 := by
      have : count src ≤ count src * src.pointStep := Nat.le_mul_of_pos_right _ hsp
      rw [← hw.length_eq] at this
      have := hw.bytes
      have : dest.width < count src := lt_of_le_of_lt hwi hi
      omega
    rw [hstep, readBytes_ok (by simpa using hidx), Outcome.bind_ok, u32_of_lt hlt]
    have hbs : ((src.data.drop (i * src.pointStep)).take src.pointStep).length = src.pointStep :=
      slice_length (by simpa using hidx)
    rw [writeBytes_ok (by rw [hbs]; exact hbound), Outcome.bind_ok, u32_of_lt hwlt']
    refine ⟨_, rfl, ?_, ?_, ?_, ?_⟩
    · have := h.descr
      conv_lhs => rw [this]
      dsimp only
      rw [hd]
    · show dest.width + 1 = _
      rw [htake, List.filter_append, List.length_append, ← h.width, hkeep]
      rfl
    · show (List.length _) = _
      rw [← h.length]
      exact write_length (by rw [hbs]; exact hbound)
    · show List.take ((dest.width + 1) * src.pointStep) _ = _
      rw [htake, List.filter_append, List.flatten_append, ← h.data, hkeep]
      have hk : (dest.data.take (dest.width * src.pointStep)).length = dest.width * src.pointStep := by
        rw [List.length_take]; omega
      rw [List.take_append_of_le_length (by rw [List.length_append, hk, hbs, Nat.add_mul]; omega),
        List.take_of_length_le (by rw [List.length_append, hk, hbs, Nat.add_mul]; omega)]
      simp [bytesAt]
  · rw [if_neg hle]
    have hdrop : [bytesAt src i 0 src.pointStep].filter (fun pt => le (num pt) max) = [] := by
      simp [hle]
    refine ⟨dest, rfl, h.descr, ?_, h.length, ?_⟩
    · rw [htake, List.filter_append, hdrop]; simpa using h.width
    · rw [htake, List.filter_append, hdrop]; simpa using h.data

/-- C57. `filter_max` on a well formed cloud: the points of the result are the points of the source whose value is not above
the maximum, byte for byte and in order; the result is a well formed cloud of one row with the same header and fields.
`num` gives the value of the field as a value of the template type. -/
theorem C57_filter_max {le : K → K → Bool} {T t : FT} {src dest : Cloud} {f : PField} {max : K} {num : List UInt8 → K}
    (hw : WellFormed src) (ht : HasType src f t)
    (hnum : ∀ pt ∈ points src, castTo cd t T (valueIn cd t f.offset pt) = .ok (num pt)) :
    ∃ out, filterMax cd le T src dest f max = .ok out ∧
      points out = (points src).filter (fun pt => le (num pt) max) ∧ WellFormed out ∧ out.height = 1 ∧
      out.width = ((points src).filter (fun pt => le (num pt) max)).length ∧
      out.header = src.header ∧ out.fields = src.fields ∧ out.pointStep = src.pointStep ∧
      out.isBigendian = src.isBigendian := by
  unfold filterMax
  dsimp only
  rw [getter_ok T ht.1, Outcome.bind_ok, hw.sizePoints, hw.sizeBytes]
  obtain ⟨d, hd, hi⟩ := forLoop_inv (Filtered src
      { dest with
        header := src.header, height := 1, width := 0, fields := src.fields, isBigendian := src.isBigendian
        pointStep := src.pointStep, data := List.replicate src.data.length 0, isDense := false }
      (fun pt => le (num pt) max)) (n := count src) (body := filterStep (readAs cd T t f.offset) le max src)
    (s := { dest with
        header := src.header, height := 1, width := 0, fields := src.fields, isBigendian := src.isBigendian
        pointStep := src.pointStep, data := List.replicate src.data.length 0, isDense := false })
    ⟨rfl, by simp, by simp, by simp⟩
    (fun i s hi h => filterStep_inv hw ht rfl hnum hi h)
  rw [hd, Outcome.bind_ok]
  have hp : (points src).take (count src) = points src := List.take_of_length_le (by rw [points_length])
  have hsp : 0 < src.pointStep := by have := ht.2; have := size_pos t; omega
  have hwidth := hi.width
  have hdata := hi.data
  rw [hp] at hwidth hdata
  have hmeta := hi.descr
  have hstep : d.pointStep = src.pointStep := by have := congrArg Cloud.pointStep hmeta; exact this
  have hheight : d.height = 1 := by have := congrArg Cloud.height hmeta; exact this
  have hwc : d.width ≤ count src := by
    rw [hwidth, ← points_length src]; exact List.length_filter_le _ _
  have hle : d.width * src.pointStep ≤ src.data.length := by
    rw [hw.length_eq]; exact Nat.mul_le_mul_right _ hwc
  have hlt : d.width * src.pointStep < 2 ^ 32 := lt_of_le_of_lt hle hw.bytes
  have hrow : rowStep d = d.width * src.pointStep := by
    unfold rowStep; rw [hstep, Nat.mul_comm, u32_of_lt hlt]
  have hbytes : sizeBytes { d with rowStep := rowStep d } = d.width * src.pointStep := by
    unfold sizeBytes
    show u32 (d.height * rowStep d) = _
    rw [hrow, hheight, Nat.one_mul, u32_of_lt hlt]
  have hres : EigenRos.resize d.data (d.width * src.pointStep) 0 =
      ((points src).filter (fun pt => le (num pt) max)).flatten := by
    unfold EigenRos.resize
    rw [hdata, hi.length, Nat.sub_eq_zero_of_le hle]
    simp
  have hpl : ∀ x ∈ (points src).filter (fun pt => le (num pt) max), x.length = src.pointStep :=
    fun x hx => point_length hw (List.mem_filter.1 hx).1
  refine ⟨_, rfl, ?_, ⟨?_, ?_, ?_, ?_⟩, ?_, ?_, ?_, ?_, ?_, ?_⟩
  · unfold points count bytesAt
    show List.map (fun i => List.take d.pointStep (List.drop (i * d.pointStep + 0)
      (EigenRos.resize d.data (sizeBytes { d with rowStep := rowStep d }) 0))) (List.range (d.height * d.width)) = _
    rw [hbytes, hres, hstep, hheight, Nat.one_mul, hwidth]
    exact cut_flatten _ hpl
  · show rowStep d = d.width * d.pointStep
    rw [hrow, hstep]
  · show (EigenRos.resize d.data (sizeBytes { d with rowStep := rowStep d }) 0).length = d.height * rowStep d
    rw [EigenRos.resize_length, hbytes, hheight, Nat.one_mul, hrow]
  · show (EigenRos.resize d.data (sizeBytes { d with rowStep := rowStep d }) 0).length < _
    rw [EigenRos.resize_length, hbytes]
    exact hlt
  · show d.height * d.width < _
    rw [hheight, Nat.one_mul]
    exact lt_of_le_of_lt hwc hw.points
  · exact hheight
  · exact hwidth
  · have := congrArg Cloud.header hmeta; exact this
  · have := congrArg Cloud.fields hmeta; exact this
  · exact hstep
  · have := congrArg Cloud.isBigendian hmeta; exact this

/-- C57. With the template type equal to the type of the field no conversion is involved. -/
theorem C57_filter_max_same_type {le : K → K → Bool} {t : FT} {src dest : Cloud} {f : PField} {max : K}
    (hw : WellFormed src) (ht : HasType src f t) :
    ∃ out, filterMax cd le t src dest f max = .ok out ∧ WellFormed out ∧
      points out = (points src).filter (fun pt => le (valueIn cd t f.offset pt) max) := by
  obtain ⟨out, h, h1, h2, -⟩ := C57_filter_max (cd := cd) (le := le) (T := t) (dest := dest) (max := max)
    (num := valueIn cd t f.offset) hw ht (fun pt _ => if_pos rfl)
  exact ⟨out, h, h2, h1⟩

/-- C57. Through the name of the field: the first field with the name is used, and a name that is not there is refused. -/
theorem C57_filter_max_named (le : K → K → Bool) (T : FT) (src dest : Cloud) (max : K) (name : String) :
    (filterMaxNamed cd le T src dest name max = .throws ∨ hasField src name = true) ∧
    ∀ before f after, src.fields = before ++ f :: after → f.name = name → (∀ g ∈ before, g.name ≠ name) →
      filterMaxNamed cd le T src dest name max = filterMax cd le T src dest f max := by
  obtain ⟨h1, h2, -, h4⟩ := C58_get_field src name
  unfold filterMaxNamed
  constructor
  · by_cases h : hasField src name = true
    · exact .inr h
    · left
      rw [h2.2 (fun f hf hn => h (h4.2 ⟨f, hf, hn⟩))]
      rfl
  · intro before f after e hn hb
    rw [(h1 f).2 ⟨before, after, e, hn, hb⟩, Outcome.bind_ok]

/-- C57. A field of an unknown type is refused. -/
theorem C57_unknown_datatype {f : PField} (h : ∀ t : FT, f.datatype ≠ t.code) (le : K → K → Bool) (T : FT) (src dest : Cloud)
    (max : K) : filterMax cd le T src dest f max = .throws := by
  have : getter cd T f = .throws := by
    unfold getter
    cases e : FT.ofCode f.datatype with
    | none => rfl
    | some t => exact absurd (ofCode_some e) (h t)
  unfold filterMax
  dsimp only
  rw [this]
  rfl

/-- C57 fails when source and destination are the same object: every cloud becomes empty. -/
theorem C57_fails_in_place {le : K → K → Bool} {T t : FT} {c : Cloud} {f : PField} {max : K} (ht : f.datatype = t.code) :
    ∃ out, filterMaxSelf cd le T c f max = .ok out ∧ points out = [] ∧ out.data = [] := by
  unfold filterMaxSelf
  dsimp only
  rw [getter_ok T ht, Outcome.bind_ok]
  refine ⟨_, by rw [show sizePoints _ = 0 from by simp [sizePoints, u32]]; rfl, by simp [points, count], ?_⟩
  simp [EigenRos.resize, sizeBytes, rowStep, u32]

/-- C57 fails for clouds with padding at the end of the rows (`row_step > width * point_step`): points are looked up as if
there was none. Here the two rows hold the points 1 and 2, and 9 is padding; the point 2 is lost. -/
theorem C57_fails_padded_rows :
    ∃ (c : Cloud) (f : PField) (out : Cloud), c.data.length = c.height * c.rowStep ∧ c.width * c.pointStep < c.rowStep ∧
      HasType c f .uint8 ∧ c.data = [1, 9, 2, 9] ∧ (c.width = 1 ∧ c.height = 2 ∧ c.pointStep = 1) ∧
      filterMax Ieee.codec (fun a b => decide (a ≤ b)) .uint8 c Cloud.empty f 5 = .ok out ∧ points out = [[1]] := by
  refine ⟨⟨⟨0, 0, ""⟩, 2, 1, [⟨"a", 0, 2, 1⟩], false, 1, 2, [1, 9, 2, 9], true⟩, ⟨"a", 0, 2, 1⟩,
    ⟨⟨0, 0, ""⟩, 1, 1, [⟨"a", 0, 2, 1⟩], false, 1, 1, [1], false⟩, rfl, by decide, ⟨rfl, by decide⟩, rfl, ⟨rfl, rfl, rfl⟩, ?_,
    by decide +kernel⟩
  decide +kernel

/-- The hypotheses of `C57_filter_max` are met, and some points are kept, others not. -/
example : ∃ num : List UInt8 → ℚ,
    (∀ pt ∈ points twoPoints, castTo Ieee.codec .uint8 .uint8 (valueIn Ieee.codec .uint8 3 pt) = .ok (num pt)) ∧
    (points twoPoints).filter (fun pt => decide (num pt ≤ 5)) = [[1, 2, 0, 3]] := by
  refine ⟨valueIn Ieee.codec .uint8 3, fun pt _ => if_pos rfl, ?_⟩
  decide +kernel

end Pcl

end Serpent
