import Verif.Spec.PclCloud
import Verif.Lemmas.Arrays

/-!
# Lemmas about bytes and fields of pointclouds
-/

namespace Serpent

namespace Pcl

open EigenRos (forLoop)

variable {K : Type} {cd : Codec K} {rep : FT → K → Prop}

theorem ofCode_code (t : FT) : FT.ofCode t.code = some t := by cases t <;> rfl

theorem code_inj {t u : FT} (h : t.code = u.code) : t = u := by
  have := congrArg FT.ofCode h
  rw [ofCode_code, ofCode_code] at this
  exact Option.some.inj this

theorem ofCode_some {n : Nat} {t : FT} (h : FT.ofCode n = some t) : n = t.code := by
  unfold FT.ofCode at h
  split at h <;> first | (cases h; rfl) | cases h

theorem size_pos (t : FT) : 0 < t.size := by cases t <;> decide

theorem u32_of_lt {n : Nat} (h : n < 2 ^ 32) : u32 n = n := Nat.mod_eq_of_lt h

theorem WellFormed.sizePoints {c : Cloud} (h : WellFormed c) : sizePoints c = count c := u32_of_lt h.points

theorem WellFormed.sizeBytes {c : Cloud} (h : WellFormed c) : sizeBytes c = c.data.length := by
  unfold Pcl.sizeBytes
  rw [← h.length, u32_of_lt h.bytes]

theorem WellFormed.length_eq {c : Cloud} (h : WellFormed c) : c.data.length = count c * c.pointStep := by
  rw [h.length, h.row, count, Nat.mul_assoc]

theorem index_le {i n s o m : Nat} (hi : i < n) (ho : o + m ≤ s) : i * s + o + m ≤ n * s := by
  have : (i + 1) * s ≤ n * s := Nat.mul_le_mul_right _ hi
  rw [Nat.add_mul, Nat.one_mul] at this
  omega

theorem WellFormed.index {c : Cloud} (h : WellFormed c) {i o m : Nat} (hi : i < count c) (ho : o + m ≤ c.pointStep) :
    i * c.pointStep + o + m ≤ c.data.length := h.length_eq ▸ index_le hi ho

/-! ### Bytes -/

theorem readBytes_ok {d : List UInt8} {k n : Nat} (h : k + n ≤ d.length) : readBytes d k n = .ok ((d.drop k).take n) := if_pos h

theorem writeBytes_ok {d bs : List UInt8} {k : Nat} (h : k + bs.length ≤ d.length) :
    writeBytes d k bs = .ok (d.take k ++ bs ++ d.drop (k + bs.length)) := if_pos h

/-- Length of the data after writing. -/
theorem write_length {d bs : List UInt8} {k : Nat} (h : k + bs.length ≤ d.length) :
    (d.take k ++ bs ++ d.drop (k + bs.length)).length = d.length := by
  simp only [List.length_append, List.length_take, List.length_drop]
  omega

/-- The bytes after writing. -/
theorem write_getElem? {d bs : List UInt8} {k : Nat} (h : k + bs.length ≤ d.length) (j : Nat) :
    (d.take k ++ bs ++ d.drop (k + bs.length))[j]? = if k ≤ j ∧ j < k + bs.length then bs[j - k]? else d[j]? := by
  have hk : (d.take k).length = k := by rw [List.length_take]; omega
  by_cases h1 : j < k
  · rw [if_neg (by omega), List.append_assoc, List.getElem?_append_left (by omega), List.getElem?_take_of_lt h1]
  · by_cases h2 : j < k + bs.length
    · rw [if_pos (by omega), List.getElem?_append_left (by simp only [List.length_append]; omega),
        List.getElem?_append_right (by omega), hk]
    · rw [if_neg (by omega), List.getElem?_append_right (by simp only [List.length_append]; omega),
        List.getElem?_drop]
      congr 1
      simp only [List.length_append]
      omega

/-- Bytes of a range. -/
theorem slice_getElem? (d : List UInt8) (k n j : Nat) : ((d.drop k).take n)[j]? = if j < n then d[k + j]? else none := by
  by_cases h : j < n
  · rw [if_pos h, List.getElem?_take_of_lt h, List.getElem?_drop]
  · rw [if_neg h, List.getElem?_take_eq_none (by omega)]

theorem slice_congr {d d' : List UInt8} {k k' n : Nat} (h : ∀ j, j < n → d[k + j]? = d'[k' + j]?) :
    (d.drop k).take n = (d'.drop k').take n := by
  apply List.ext_getElem?
  intro j
  rw [slice_getElem?, slice_getElem?]
  by_cases hj : j < n
  · rw [if_pos hj, if_pos hj, h j hj]
  · rw [if_neg hj, if_neg hj]

theorem slice_length {d : List UInt8} {k n : Nat} (h : k + n ≤ d.length) : ((d.drop k).take n).length = n := by
  rw [List.length_take, List.length_drop]; omega

/-- Reading what was written. -/
theorem slice_write_same {d bs : List UInt8} {k : Nat} (h : k + bs.length ≤ d.length) :
    ((d.take k ++ bs ++ d.drop (k + bs.length)).drop k).take bs.length = bs := by
  apply List.ext_getElem?
  intro j
  rw [slice_getElem?, write_getElem? h]
  by_cases hj : j < bs.length
  · rw [if_pos hj, if_pos (by omega)]; congr 1; omega
  · rw [if_neg hj, List.getElem?_eq_none (by omega)]

/-- Reading elsewhere. -/
theorem slice_write_other {d bs : List UInt8} {k m n : Nat} (h : k + bs.length ≤ d.length)
    (hd : m + n ≤ k ∨ k + bs.length ≤ m) :
    ((d.take k ++ bs ++ d.drop (k + bs.length)).drop m).take n = (d.drop m).take n := by
  apply slice_congr
  intro j hj
  rw [write_getElem? h, if_neg (by omega)]

/-! ### Values -/

theorem castTo_rep (hl : cd.Lawful rep) {a b : FT} {v w : K} (ha : rep a v) (h : castTo cd a b v = .ok w) : rep b w := by
  unfold castTo at h
  by_cases e : a = b
  · rw [if_pos e] at h; cases h; exact e ▸ ha
  · rw [if_neg e] at h; exact hl.cast_rep _ _ _ _ h

theorem castTo_of_rep (hl : cd.Lawful rep) (a : FT) {b : FT} {v : K} (h : rep b v) : castTo cd a b v = .ok v := by
  unfold castTo
  by_cases e : a = b
  · rw [if_pos e]
  · rw [if_neg e, hl.cast_of_rep _ _ _ h]

theorem value_rep (hl : cd.Lawful rep) {c : Cloud} {f : PField} {t : FT} {i : Nat} (hw : WellFormed c) (ht : HasType c f t)
    (hi : i < count c) : rep t (value cd t c f i) :=
  hl.dec_rep _ _ (slice_length (hw.index hi ht.2))

/-- The value of a field depends on the bytes of the point only. -/
theorem value_eq_valueIn {c : Cloud} {f : PField} {t : FT} (ht : HasType c f t) (i : Nat) :
    value cd t c f i = valueIn cd t f.offset (bytesAt c i 0 c.pointStep) := by
  unfold value valueIn bytesAt
  congr 1
  apply List.ext_getElem?
  intro j
  have := ht.2
  rw [slice_getElem?, slice_getElem?]
  by_cases hj : j < t.size
  · rw [if_pos hj, if_pos hj, slice_getElem?, if_pos (by omega)]
    congr 1; omega
  · rw [if_neg hj, if_neg hj]

theorem getter_ok {f : PField} {t : FT} (out : FT) (h : f.datatype = t.code) :
    getter cd out f = .ok (readAs cd out t f.offset) := by
  unfold getter
  rw [h, ofCode_code]

theorem setter_ok {f : PField} {t : FT} (inT : FT) (h : f.datatype = t.code) :
    setter cd inT f = .ok (writeAs cd inT t f.offset) := by
  unfold setter
  rw [h, ofCode_code]

theorem getterTyped_ok {f : PField} {t : FT} (out : FT) (h : f.datatype = t.code) :
    getterTyped cd out t f = .ok (readAs cd out t f.offset) := if_neg (by simp [h])

theorem setterTyped_ok {f : PField} {t : FT} (inT : FT) (h : f.datatype = t.code) :
    setterTyped cd inT t f = .ok (writeAs cd inT t f.offset) := if_neg (by simp [h])

theorem readAs_eq {c : Cloud} {f : PField} {t : FT} {i : Nat} (out : FT) (hw : WellFormed c) (ht : HasType c f t)
    (hi : i < count c) : readAs cd out t f.offset c i = castTo cd t out (value cd t c f i) := by
  unfold readAs
  rw [readBytes_ok (hw.index hi ht.2)]
  rfl

/-- The cloud after writing bytes at an offset of a point. -/
def putBytes (c : Cloud) (i o : Nat) (bs : List UInt8) : Cloud :=
  { c with data := c.data.take (i * c.pointStep + o) ++ bs ++ c.data.drop (i * c.pointStep + o + bs.length) }

theorem writeAs_eq (hl : cd.Lawful rep) {c : Cloud} {f : PField} {t : FT} {i : Nat} (inT : FT) {v w : K} (hw : WellFormed c)
    (ht : HasType c f t) (hi : i < count c) (hc : castTo cd inT t v = .ok w) :
    writeAs cd inT t f.offset c i v = .ok (putBytes c i f.offset (cd.enc t w)) := by
  unfold writeAs
  rw [hc, Outcome.bind_ok, writeBytes_ok (by rw [hl.enc_length]; exact hw.index hi ht.2)]
  rfl

theorem putBytes_wellFormed {c : Cloud} {i o : Nat} {bs : List UInt8} (hw : WellFormed c) (hi : i < count c)
    (ho : o + bs.length ≤ c.pointStep) : WellFormed (putBytes c i o bs) := by
  have hlen : (putBytes c i o bs).data.length = c.data.length := write_length (hw.index hi ho)
  exact ⟨hw.row, hlen.trans hw.length, by rw [hlen]; exact hw.bytes, hw.points⟩

theorem putBytes_same {c : Cloud} {i o : Nat} {bs : List UInt8} (hw : WellFormed c) (hi : i < count c)
    (ho : o + bs.length ≤ c.pointStep) : bytesAt (putBytes c i o bs) i o bs.length = bs :=
  slice_write_same (hw.index hi ho)

/-- Ranges of different points, or disjoint ranges of the same point, are disjoint. -/
theorem ranges_disjoint {i j s o m p n : Nat} (hi : o + m ≤ s) (hj : p + n ≤ s) (h : i ≠ j ∨ o + m ≤ p ∨ p + n ≤ o) :
    j * s + p + n ≤ i * s + o ∨ i * s + o + m ≤ j * s + p := by
  rcases Nat.lt_trichotomy i j with hlt | rfl | hlt
  · have : (i + 1) * s ≤ j * s := Nat.mul_le_mul_right _ hlt
    rw [Nat.add_mul, Nat.one_mul] at this
    omega
  · omega
  · have : (j + 1) * s ≤ i * s := Nat.mul_le_mul_right _ hlt
    rw [Nat.add_mul, Nat.one_mul] at this
    omega

theorem putBytes_other {c : Cloud} {i o j p n : Nat} {bs : List UInt8} (hw : WellFormed c) (hi : i < count c)
    (ho : o + bs.length ≤ c.pointStep) (hp : p + n ≤ c.pointStep) (h : i ≠ j ∨ o + bs.length ≤ p ∨ p + n ≤ o) :
    bytesAt (putBytes c i o bs) j p n = bytesAt c j p n :=
  slice_write_other (hw.index hi ho) (ranges_disjoint ho hp h)

theorem putBytes_getElem? {c : Cloud} {i o : Nat} {bs : List UInt8} (hw : WellFormed c) (hi : i < count c)
    (ho : o + bs.length ≤ c.pointStep) (k : Nat) :
    (putBytes c i o bs).data[k]? = if i * c.pointStep + o ≤ k ∧ k < i * c.pointStep + o + bs.length
      then bs[k - (i * c.pointStep + o)]? else c.data[k]? := write_getElem? (hw.index hi ho) k

end Pcl

end Serpent
