import Verif.Props.PclFields
import Verif.Lemmas.Stereo

/-!
# `add_fields` (C59)
-/

namespace Serpent

namespace Pcl

open EigenRos (forLoop forLoop_inv forLoop_succ)
open Stereo (forLoop_ok_inv)

/-- Offset of the first byte after a field. -/
def fieldEnd (f : PField) : Nat := f.offset + getFieldSize f.datatype * f.count

/-- Offset of the first byte after the last field of the list. -/
def lastEnd (fs : List PField) : Nat := match fs.getLast? with
  | none => 0
  | some l => fieldEnd l

/-- The fields that are expected to be appended: one after the other, from offset `e` on. -/
def newFields (e : Nat) (t : FT) (count : Nat) (names : List String) : List PField :=
  names.zipIdx.map (fun p => ⟨p.1, e + p.2 * (t.size * count), t.code, count⟩)

theorem lastEnd_append (fs : List PField) (f : PField) : lastEnd (fs ++ [f]) = fieldEnd f := by
  unfold lastEnd
  rw [List.getLast?_append]
  rfl

theorem getFieldSize_code (t : FT) : getFieldSize t.code = t.size := by cases t <;> rfl

theorem appendFields_eq {fs : List PField} {t : FT} {n : Nat} (names : List String)
    (h : lastEnd fs + names.length * (t.size * n) < 2 ^ 32) :
    appendFields fs names t n = fs ++ newFields (lastEnd fs) t n names ∧
      lastEnd (appendFields fs names t n) = lastEnd fs + names.length * (t.size * n) := by
  induction names using List.reverseRecOn with
  | nil => simp [appendFields, newFields]
  | append_singleton ns a ih =>
    rw [List.length_append, List.length_singleton, Nat.add_mul, Nat.one_mul] at h
    obtain ⟨h1, h2⟩ := ih (by omega)
    have hstep : appendFields fs (ns ++ [a]) t n = appendFields fs ns t n ++
        [⟨a, match (appendFields fs ns t n).getLast? with
          | none => 0
          | some l => pointStep l, t.code, n⟩] := by
      unfold appendFields
      rw [List.foldl_append]
      rfl
    have hoff : (match (appendFields fs ns t n).getLast? with
          | none => 0
          | some l => pointStep l) = lastEnd (appendFields fs ns t n) := by
      have hlt : lastEnd (appendFields fs ns t n) < 2 ^ 32 := by rw [h2]; omega
      unfold lastEnd at hlt ⊢
      cases e : (appendFields fs ns t n).getLast? with
      | none => rfl
      | some l => rw [e] at hlt; exact u32_of_lt hlt
    rw [hoff] at hstep
    constructor
    · rw [hstep, h2, h1, List.append_assoc]
      congr 1
      unfold newFields
      rw [List.zipIdx_append, List.map_append]
      simp
    · rw [hstep, lastEnd_append, h2, List.length_append, List.length_singleton]
      unfold fieldEnd
      dsimp only
      rw [getFieldSize_code]
      ring

/-- State of the copying loop of `add_fields`. -/
structure Copied (src dest0 : Cloud) (k : Nat) (dest : Cloud) : Prop where
  descr : dest = { dest0 with data := dest.data }
  length : dest.data.length = dest0.data.length
  bytes : ∀ i o, i < k → o < src.pointStep → dest.data[i * dest0.pointStep + o]? = src.data[i * src.pointStep + o]?

/-- The loop of `add_fields` as a function. -/
def copyStep (src : Cloud) (k : Nat) (dest : Cloud) : Outcome Cloud :=
  readBytes src.data (k * src.pointStep) src.pointStep >>= fun bs =>
  writeBytes dest.data (k * dest.pointStep) bs >>= fun data => .ok { dest with data := data }

/-- The cloud before the copying loop. -/
def prepared (src : Cloud) (fields : List PField) (step : Nat) : Cloud :=
  { src with fields := fields, pointStep := step, rowStep := src.width * step, data := List.replicate (count src * step) 0 }

theorem addFields_eq {src : Cloud} {names : List String} {t : FT} {n : Nat} (hne : src.fields ≠ [] ∨ names ≠ [])
    (hstep : lastEnd src.fields + names.length * (t.size * n) < 2 ^ 32)
    (hbytes : count src * (lastEnd src.fields + names.length * (t.size * n)) < 2 ^ 32)
    (hwidth : src.width * (lastEnd src.fields + names.length * (t.size * n)) < 2 ^ 32) :
    addFields src names t n =
      forLoop (if lastEnd src.fields + names.length * (t.size * n) = 0 then 0 else count src) (copyStep src)
        (prepared src (src.fields ++ newFields (lastEnd src.fields) t n names)
          (lastEnd src.fields + names.length * (t.size * n))) := by
  obtain ⟨h1, h2⟩ := appendFields_eq names hstep
  set s := lastEnd src.fields + names.length * (t.size * n) with hs
  have hlast : ∃ last, (appendFields src.fields names t n).getLast? = some last := by
    rw [h1]
    cases e : (src.fields ++ newFields (lastEnd src.fields) t n names).getLast? with
    | some l => exact ⟨l, rfl⟩
    | none =>
      rw [List.getLast?_eq_none_iff, List.append_eq_nil_iff] at e
      have : names = [] := by
        have h := congrArg List.length e.2
        simp only [newFields, List.length_map, List.length_zipIdx, List.length_nil, List.length_eq_zero_iff] at h
        exact h
      rcases hne with h | h
      · exact absurd e.1 h
      · exact absurd this h
  obtain ⟨last, hl⟩ := hlast
  have hps : pointStep last = s := by
    have : fieldEnd last = s := by
      have h := h2
      unfold lastEnd at h
      rw [hl] at h
      exact h
    unfold pointStep
    change u32 (fieldEnd last) = s
    rw [this, u32_of_lt hstep]
  unfold addFields
  dsimp only
  rw [hl]
  dsimp only
  rw [hps]
  have hrow : rowStep { src with fields := appendFields src.fields names t n, pointStep := s } = src.width * s := by
    unfold rowStep
    dsimp only
    rw [Nat.mul_comm, u32_of_lt hwidth]
  have hsize : ∀ d : List UInt8, sizeBytes { src with
      fields := appendFields src.fields names t n, pointStep := s, rowStep := src.width * s, data := d } = count src * s := by
    intro d
    unfold sizeBytes count
    dsimp only
    rw [← Nat.mul_assoc]
    exact u32_of_lt hbytes
  rw [hrow, hsize, h1, List.length_replicate]
  unfold prepared
  congr 1
  by_cases h0 : s = 0
  · rw [if_pos h0, h0, Nat.div_zero]
  · rw [if_neg h0, Nat.mul_comm]
    have : s * count src + s - 1 = (s - 1) + s * count src := by omega
    rw [this, Nat.add_mul_div_left _ _ (by omega), Nat.div_eq_of_lt (by omega), Nat.zero_add]

/-- C59 (what holds). When the last field of the cloud ends last, the points of the source are not longer than those of the
result and the result has less than 2^32 bytes, `add_fields` succeeds: the result is well formed and has the fields of the
source followed by the requested ones; no two new fields overlap, they do not overlap an old one, and lie within the point;
every byte of every point is the one of the source. -/
theorem C59_add_fields_partial {src : Cloud} {names : List String} {t : FT} {n : Nat} (hw : WellFormed src)
    (hne : src.fields ≠ [] ∨ names ≠ [])
    (hlast : ∀ f ∈ src.fields, fieldEnd f ≤ lastEnd src.fields)
    (hstep : src.pointStep ≤ lastEnd src.fields + names.length * (t.size * n))
    (hfit : lastEnd src.fields + names.length * (t.size * n) < 2 ^ 32)
    (hbytes : count src * (lastEnd src.fields + names.length * (t.size * n)) < 2 ^ 32)
    (hwidth : src.width * (lastEnd src.fields + names.length * (t.size * n)) < 2 ^ 32) :
    ∃ dest, addFields src names t n = .ok dest ∧ WellFormed dest ∧ count dest = count src ∧
      dest.header = src.header ∧ dest.isBigendian = src.isBigendian ∧ dest.isDense = src.isDense ∧
      dest.pointStep = lastEnd src.fields + names.length * (t.size * n) ∧
      (∃ new, dest.fields = src.fields ++ new ∧ new.map (·.name) = names ∧
        (∀ g ∈ new, g.datatype = t.code ∧ g.count = n ∧ fieldEnd g ≤ dest.pointStep) ∧
        (∀ g ∈ new, ∀ f ∈ src.fields, fieldEnd f ≤ g.offset) ∧
        new.Pairwise (fun g g' => fieldEnd g ≤ g'.offset)) ∧
      ∀ i o, i < count src → o < src.pointStep →
        dest.data[i * dest.pointStep + o]? = src.data[i * src.pointStep + o]? := by
  rw [addFields_eq hne hfit hbytes hwidth]
  set s := lastEnd src.fields + names.length * (t.size * n) with hs
  have hloop : ∃ dest, forLoop (if s = 0 then 0 else count src) (copyStep src)
      (prepared src (src.fields ++ newFields (lastEnd src.fields) t n names) s) = .ok dest ∧
      Copied src (prepared src (src.fields ++ newFields (lastEnd src.fields) t n names) s)
        (if s = 0 then 0 else count src) dest := by
    refine forLoop_inv (Copied src _) (body := copyStep src) ⟨rfl, rfl, fun i o hi => by omega⟩ ?_
    intro k d hk h
    have hk' : k < count src := by by_cases h0 : s = 0 <;> simp [h0] at hk; exact hk
    have hps : d.pointStep = s := by have := congrArg Cloud.pointStep h.descr; exact this
    have hidx := hw.index hk' (o := 0) (m := src.pointStep) (by omega)
    have hlen : ((src.data.drop (k * src.pointStep)).take src.pointStep).length = src.pointStep :=
      slice_length (by simpa using hidx)
    have hbound : k * s + ((src.data.drop (k * src.pointStep)).take src.pointStep).length ≤ d.data.length := by
      rw [hlen, h.length]
      unfold prepared
      rw [List.length_replicate]
      have := index_le (o := 0) (m := src.pointStep) hk' (s := s) (by omega)
      omega
    unfold copyStep
    rw [readBytes_ok (by simpa using hidx), Outcome.bind_ok, hps, writeBytes_ok hbound, Outcome.bind_ok]
    refine ⟨_, rfl, ?_, (write_length hbound).trans h.length, ?_⟩
    · have e := h.descr
      generalize d.data = x at e ⊢
      rw [e]
      rfl
    · intro i o hi ho
      show (List.take (k * s) d.data ++ _ ++ _)[i * s + o]? = _
      rw [write_getElem? hbound, hlen]
      by_cases hik : i = k
      · subst hik
        rw [if_pos (by omega), slice_getElem?, if_pos (by omega)]
        congr 1
        omega
      · have hlt : i < k := by omega
        have := index_le (i := i) (n := k) (s := s) (o := o) (m := 1) hlt (by omega)
        rw [if_neg (by omega)]
        exact h.bytes i o hlt ho
  obtain ⟨dest, hd, hc⟩ := hloop
  have hdescr := hc.descr
  have hps : dest.pointStep = s := by have := congrArg Cloud.pointStep hdescr; exact this
  have hfields : dest.fields = src.fields ++ newFields (lastEnd src.fields) t n names := by
    have := congrArg Cloud.fields hdescr; exact this
  have hrow : dest.rowStep = src.width * s := by have := congrArg Cloud.rowStep hdescr; exact this
  have hheight : dest.height = src.height := by have := congrArg Cloud.height hdescr; exact this
  have hwid : dest.width = src.width := by have := congrArg Cloud.width hdescr; exact this
  have hlen : dest.data.length = count src * s := by
    rw [hc.length]; unfold prepared; rw [List.length_replicate]
  have hcount : count dest = count src := by unfold count; rw [hheight, hwid]
  refine ⟨dest, hd, ⟨?_, ?_, ?_, ?_⟩, hcount, ?_, ?_, ?_, hps, ?_, ?_⟩
  · rw [hrow, hwid, hps]
  · rw [hlen, hheight, hrow, count, Nat.mul_assoc]
  · rw [hlen]; exact hbytes
  · have := hw.points; rw [hheight, hwid]; exact this
  · have := congrArg Cloud.header hdescr; exact this
  · have := congrArg Cloud.isBigendian hdescr; exact this
  · have := congrArg Cloud.isDense hdescr; exact this
  · have hend : ∀ (a : String) (k : Nat), fieldEnd ⟨a, lastEnd src.fields + k * (t.size * n), t.code, n⟩ =
        lastEnd src.fields + (k + 1) * (t.size * n) := by
      intro a k
      unfold fieldEnd
      dsimp only
      rw [getFieldSize_code]
      ring
    refine ⟨_, hfields, ?_, ?_, ?_, ?_⟩
    · unfold newFields
      rw [List.map_map]
      exact (List.map_congr_left fun p _ => rfl).trans (List.zipIdx_map_fst 0 names)
    · intro g hg
      obtain ⟨p, hp, rfl⟩ := List.mem_map.1 hg
      have hp2 : p.2 < names.length := by
        have := List.mem_zipIdx_iff_getElem?.1 hp
        exact (List.getElem?_eq_some_iff.1 this).1
      refine ⟨rfl, rfl, ?_⟩
      rw [hend, hps, hs]
      have : (p.2 + 1) * (t.size * n) ≤ names.length * (t.size * n) := Nat.mul_le_mul_right _ hp2
      omega
    · intro g hg f hf
      obtain ⟨p, hp, rfl⟩ := List.mem_map.1 hg
      have := hlast f hf
      show fieldEnd f ≤ lastEnd src.fields + p.2 * (t.size * n)
      omega
    · unfold newFields
      rw [List.pairwise_map]
      have hz : names.zipIdx.Pairwise (fun p q => p.2 < q.2) := by
        rw [List.pairwise_iff_getElem]
        intro i j hi hj hij
        simp only [List.getElem_zipIdx]
        omega
      refine hz.imp ?_
      intro p q hpq
      rw [hend]
      have : (p.2 + 1) * (t.size * n) ≤ q.2 * (t.size * n) := Nat.mul_le_mul_right _ hpq
      show _ ≤ lastEnd src.fields + q.2 * (t.size * n)
      omega
  · intro i o hi ho
    rw [hps]
    by_cases h0 : s = 0
    · omega
    · have := hc.bytes i o (by rw [if_neg h0]; exact hi) ho
      exact this

/-- C59 fails for clouds whose points are longer than the fields of the result: copying the last point writes outside of
the buffer. -/
theorem C59_fails_overrun {src : Cloud} {names : List String} {t : FT} {n : Nat}
    (hne : src.fields ≠ [] ∨ names ≠ [])
    (hpos : 0 < lastEnd src.fields + names.length * (t.size * n))
    (hstep : lastEnd src.fields + names.length * (t.size * n) < src.pointStep) (hcount : 0 < count src)
    (hfit : lastEnd src.fields + names.length * (t.size * n) < 2 ^ 32)
    (hbytes : count src * (lastEnd src.fields + names.length * (t.size * n)) < 2 ^ 32)
    (hwidth : src.width * (lastEnd src.fields + names.length * (t.size * n)) < 2 ^ 32) :
    addFields src names t n = .ub := by
  rw [addFields_eq hne hfit hbytes hwidth]
  set s := lastEnd src.fields + names.length * (t.size * n) with hs
  rw [if_neg (by omega)]
  obtain ⟨m, hm⟩ : ∃ m, count src = m + 1 := ⟨count src - 1, by omega⟩
  rw [hm, forLoop_succ]
  have hnt : ∀ k d, copyStep src k d ≠ .throws := by
    intro k d
    unfold copyStep readBytes writeBytes
    by_cases h1 : k * src.pointStep + src.pointStep ≤ src.data.length
    · rw [if_pos h1, Outcome.bind_ok]
      by_cases h2 : k * d.pointStep + ((src.data.drop (k * src.pointStep)).take src.pointStep).length ≤ d.data.length
      · rw [if_pos h2]; simp
      · rw [if_neg h2]; simp
    · rw [if_neg h1]; simp
  have hall : ∀ k d, forLoop k (copyStep src) d ≠ .throws := by
    intro k
    induction k with
    | zero => intro d; simp [forLoop]
    | succ k ih =>
      intro d
      rw [forLoop_succ]
      cases e : forLoop k (copyStep src) d with
      | ok d' => rw [Outcome.bind_ok]; exact hnt _ _
      | throws => exact absurd e (ih d)
      | ub => simp
  cases e : forLoop m (copyStep src) (prepared src (src.fields ++ newFields (lastEnd src.fields) t n names) s) with
  | throws => exact absurd e (hall _ _)
  | ub => rfl
  | ok d =>
    have hinv : d.pointStep = s ∧ d.data.length = count src * s := by
      refine forLoop_ok_inv (fun _ d => d.pointStep = s ∧ d.data.length = count src * s) ⟨rfl, ?_⟩ ?_ e
      · unfold prepared; rw [List.length_replicate]
      · intro i d d' hi h hd
        unfold copyStep readBytes at hd
        by_cases h1 : i * src.pointStep + src.pointStep ≤ src.data.length
        · rw [if_pos h1, Outcome.bind_ok] at hd
          unfold writeBytes at hd
          by_cases h2 : i * d.pointStep + ((src.data.drop (i * src.pointStep)).take src.pointStep).length ≤ d.data.length
          · rw [if_pos h2, Outcome.bind_ok] at hd
            rw [← Outcome.ok.inj hd]
            exact ⟨h.1, (write_length h2).trans h.2⟩
          · rw [if_neg h2] at hd; cases hd
        · rw [if_neg h1] at hd; cases hd
    rw [Outcome.bind_ok]
    unfold copyStep readBytes
    by_cases h1 : m * src.pointStep + src.pointStep ≤ src.data.length
    · rw [if_pos h1, Outcome.bind_ok]
      unfold writeBytes
      rw [if_neg, Outcome.bind_ub]
      rw [slice_length h1, hinv.1, hinv.2, hm, Nat.add_mul]
      omega
    · rw [if_neg h1]; rfl

/-- C59 fails on a cloud as drivers produce them: `x`, `y`, `z` and an intensity at offset 16, points of 32 bytes. Adding one
`float` writes outside of the buffer. -/
theorem C59_fails_padding :
    ∃ src : Cloud, WellFormed src ∧ (∀ f ∈ src.fields, fieldEnd f ≤ lastEnd src.fields) ∧ count src = 1 ∧
      addFields src ["u"] .float32 1 = .ub := by
  refine ⟨⟨⟨0, 0, ""⟩, 1, 1, [⟨"x", 0, 7, 1⟩, ⟨"y", 4, 7, 1⟩, ⟨"z", 8, 7, 1⟩, ⟨"intensity", 16, 7, 1⟩], false, 32, 32,
    List.replicate 32 0, true⟩, ⟨rfl, by decide, by decide, by decide⟩, by decide, rfl, ?_⟩
  exact C59_fails_overrun (.inl (by simp)) (by decide) (by decide) (by decide) (by decide) (by decide) (by decide)

/-- C59 fails when the last field is not the one with the largest offset: the new field lies on top of an old one. -/
theorem C59_fails_unordered :
    ∃ (src dest : Cloud) (f g : PField), WellFormed src ∧ src.fields = [f, ⟨"b", 0, 6, 1⟩] ∧
      addFields src ["c"] .uint32 1 = .ok dest ∧ dest.fields = src.fields ++ [g] ∧ f.offset = g.offset := by
  refine ⟨⟨⟨0, 0, ""⟩, 1, 1, [⟨"a", 4, 6, 1⟩, ⟨"b", 0, 6, 1⟩], false, 8, 8, [1, 2, 3, 4, 5, 6, 7, 8], true⟩,
    ⟨⟨0, 0, ""⟩, 1, 1, [⟨"a", 4, 6, 1⟩, ⟨"b", 0, 6, 1⟩, ⟨"c", 4, 6, 1⟩], false, 8, 8, [1, 2, 3, 4, 5, 6, 7, 8], true⟩,
    ⟨"a", 4, 6, 1⟩, ⟨"c", 4, 6, 1⟩, ⟨rfl, rfl, by decide, by decide⟩, rfl, by decide +kernel, rfl, rfl⟩

/-- C59 fails for a cloud without fields when no names are given: `fields.back()` of an empty vector. -/
theorem C59_fails_no_fields (src : Cloud) (h : src.fields = []) (t : FT) (n : Nat) : addFields src [] t n = .ub := by
  unfold addFields appendFields
  rw [h]
  rfl

/-- The hypotheses of `C59_add_fields_partial` are met by a cloud with padding. -/
example : ∃ dest, addFields twoPoints ["c", "d"] .uint8 1 = .ok dest ∧
    dest.fields = twoPoints.fields ++ [⟨"c", 4, 2, 1⟩, ⟨"d", 5, 2, 1⟩] ∧ points dest = [[1, 2, 0, 3, 0, 0], [5, 0, 0, 7, 0, 0]] := by
  refine ⟨⟨⟨0, 0, "lidar"⟩, 1, 2, [⟨"a", 0, 4, 1⟩, ⟨"b", 3, 2, 1⟩, ⟨"c", 4, 2, 1⟩, ⟨"d", 5, 2, 1⟩], false, 6, 12,
    [1, 2, 0, 3, 0, 0, 5, 0, 0, 7, 0, 0], true⟩, by decide +kernel, rfl, by decide +kernel⟩

example : ∃ dest, addFields twoPoints ["c", "d"] .uint8 1 = .ok dest := by
  obtain ⟨dest, h, -⟩ := C59_add_fields_partial (names := ["c", "d"]) (t := .uint8) (n := 1) twoPoints_meets.1 (.inr (by simp))
    (by decide) (by decide) (by decide) (by decide) (by decide)
  exact ⟨dest, h⟩

/-- C59 (what holds), one field: `add_field` appends the field behind the last one of the source, and the bytes of the points stay. -/
theorem C59_add_field_partial {src : Cloud} {name : String} {t : FT} {n : Nat} (hw : WellFormed src)
    (hlast : ∀ f ∈ src.fields, fieldEnd f ≤ lastEnd src.fields) (hstep : src.pointStep ≤ lastEnd src.fields + t.size * n)
    (hfit : lastEnd src.fields + t.size * n < 2 ^ 32) (hbytes : count src * (lastEnd src.fields + t.size * n) < 2 ^ 32)
    (hwidth : src.width * (lastEnd src.fields + t.size * n) < 2 ^ 32) :
    ∃ dest g, addField src name t n = .ok dest ∧ WellFormed dest ∧ count dest = count src ∧ dest.fields = src.fields ++ [g] ∧
      g.name = name ∧ g.datatype = t.code ∧ g.count = n ∧ fieldEnd g ≤ dest.pointStep ∧
      (∀ f ∈ src.fields, fieldEnd f ≤ g.offset) ∧
      ∀ i o, i < count src → o < src.pointStep →
        dest.data[i * dest.pointStep + o]? = src.data[i * src.pointStep + o]? := by
  have h1 : [name].length * (t.size * n) = t.size * n := by simp
  obtain ⟨dest, h, hwd, hc, -, -, -, -, ⟨new, hf, hn, ha, hb, -⟩, hd⟩ := C59_add_fields_partial (names := [name]) (t := t) (n := n) hw
    (.inr (by simp)) hlast (by rwa [h1]) (by rwa [h1]) (by rwa [h1]) (by rwa [h1])
  obtain ⟨g, rfl⟩ : ∃ g, new = [g] := List.length_eq_one_iff.1 (by simpa using congrArg List.length hn)
  have hg := ha g (by simp)
  exact ⟨dest, g, h, hwd, hc, hf, by simpa using hn, hg.1, hg.2.1, hg.2.2, hb g (by simp), hd⟩

/-- Its hypotheses are met by a cloud with padding. -/
example : ∃ dest g, addField twoPoints "c" .uint8 1 = .ok dest ∧ dest.fields = twoPoints.fields ++ [g] := by
  obtain ⟨dest, g, h, -, -, hf, -⟩ := C59_add_field_partial (name := "c") (t := .uint8) (n := 1) twoPoints_meets.1
    (by decide) (by decide) (by decide) (by decide) (by decide)
  exact ⟨dest, g, h, hf⟩

end Pcl

end Serpent
