import Verif.Lemmas.PclCloud

/-!
# Loops that change a cloud point by point
-/

namespace Serpent

namespace Pcl

open EigenRos (forLoop forLoop_inv)

variable {K : Type} {cd : Codec K} {rep : FT → K → Prop}

/-- The bytes of a point after writing some of them. -/
def patch (p : List UInt8) (o : Nat) (bs : List UInt8) : List UInt8 := p.take o ++ bs ++ p.drop (o + bs.length)

theorem patch_length {p bs : List UInt8} {o : Nat} (h : o + bs.length ≤ p.length) : (patch p o bs).length = p.length :=
  write_length h

theorem patch_getElem? {p bs : List UInt8} {o : Nat} (h : o + bs.length ≤ p.length) (j : Nat) :
    (patch p o bs)[j]? = if o ≤ j ∧ j < o + bs.length then bs[j - o]? else p[j]? := write_getElem? h j

theorem valueIn_patch_same (hl : cd.Lawful rep) {t : FT} {o : Nat} {p : List UInt8} (w : K) (h : o + t.size ≤ p.length) :
    valueIn cd t o (patch p o (cd.enc t w)) = cd.dec t (cd.enc t w) := by
  unfold valueIn
  have := slice_write_same (d := p) (bs := cd.enc t w) (k := o) (by rw [hl.enc_length]; exact h)
  rw [hl.enc_length] at this
  unfold patch
  rw [hl.enc_length, this]

theorem valueIn_patch_other {t : FT} {o o' : Nat} {p bs : List UInt8} (h : o' + bs.length ≤ p.length)
    (hd : o + t.size ≤ o' ∨ o' + bs.length ≤ o) : valueIn cd t o (patch p o' bs) = valueIn cd t o p := by
  unfold valueIn patch
  rw [slice_write_other h hd]

/-- `d` differs from `c` in the bytes only, and is well formed. -/
structure Like (c d : Cloud) : Prop where
  descr : { d with data := c.data } = c
  wellFormed : WellFormed d

theorem Like.pointStep {c d : Cloud} (h : Like c d) : d.pointStep = c.pointStep := by
  have := congrArg Cloud.pointStep h.descr; exact this

theorem Like.count {c d : Cloud} (h : Like c d) : count d = count c := by
  have a := congrArg Cloud.height h.descr
  have b := congrArg Cloud.width h.descr
  unfold Pcl.count
  exact congrArg₂ _ a b

theorem Like.fields {c d : Cloud} (h : Like c d) : d.fields = c.fields := by
  have := congrArg Cloud.fields h.descr; exact this

theorem Like.hasType {c d : Cloud} (h : Like c d) {f : PField} {t : FT} (ht : HasType c f t) : HasType d f t :=
  ⟨ht.1, by rw [h.pointStep]; exact ht.2⟩

/-- The bytes of point `i`. -/
def point (c : Cloud) (i : Nat) : List UInt8 := bytesAt c i 0 c.pointStep

theorem point_length' {c : Cloud} (hw : WellFormed c) {i : Nat} (hi : i < count c) : (point c i).length = c.pointStep :=
  slice_length (hw.index hi (by omega))

theorem point_getElem? {c : Cloud} {i o : Nat} (ho : o < c.pointStep) : (point c i)[o]? = c.data[i * c.pointStep + o]? := by
  unfold point bytesAt
  rw [slice_getElem?, if_pos ho, Nat.add_zero]

theorem value_eq_point {c : Cloud} {f : PField} {t : FT} (ht : HasType c f t) (i : Nat) :
    value cd t c f i = valueIn cd t f.offset (point c i) := value_eq_valueIn ht i

theorem readAs_point {c d : Cloud} (h : Like c d) {f : PField} {t : FT} {i : Nat} (out : FT) (ht : HasType c f t)
    (hi : i < count c) : readAs cd out t f.offset d i = castTo cd t out (valueIn cd t f.offset (point d i)) := by
  rw [readAs_eq out h.wellFormed (h.hasType ht) (h.count.symm ▸ hi), value_eq_point (h.hasType ht)]

theorem writeAs_point (hl : cd.Lawful rep) {c d : Cloud} (h : Like c d) {f : PField} {t : FT} {i : Nat} {inT : FT} {v w : K}
    (ht : HasType c f t) (hi : i < count c) (hc : castTo cd inT t v = .ok w) :
    ∃ d', writeAs cd inT t f.offset d i v = .ok d' ∧ Like c d' ∧ point d' i = patch (point d i) f.offset (cd.enc t w) ∧
      ∀ j, j ≠ i → point d' j = point d j := by
  have hid : i < Pcl.count d := h.count.symm ▸ hi
  have ho : f.offset + (cd.enc t w).length ≤ d.pointStep := by rw [hl.enc_length]; exact (h.hasType ht).2
  refine ⟨_, writeAs_eq hl inT h.wellFormed (h.hasType ht) hid hc, ⟨h.descr, putBytes_wellFormed h.wellFormed hid ho⟩, ?_, ?_⟩
  · apply List.ext_getElem?
    intro j
    have hlen : f.offset + (cd.enc t w).length ≤ (point d i).length := by rw [point_length' h.wellFormed hid]; exact ho
    rw [patch_getElem? hlen]
    by_cases hj : j < d.pointStep
    · rw [point_getElem? (c := putBytes d i f.offset (cd.enc t w)) hj, point_getElem? hj]
      show (putBytes d i f.offset (cd.enc t w)).data[i * d.pointStep + j]? = _
      rw [putBytes_getElem? h.wellFormed hid ho]
      by_cases hin : f.offset ≤ j ∧ j < f.offset + (cd.enc t w).length
      · rw [if_pos hin, if_pos (by omega)]
        congr 1
        omega
      · rw [if_neg hin, if_neg (by omega)]
    · rw [if_neg (by omega)]
      unfold point bytesAt
      rw [slice_getElem?, slice_getElem?, if_neg hj, if_neg]
      exact hj
  · intro j hj
    exact putBytes_other h.wellFormed hid ho (by show 0 + d.pointStep ≤ d.pointStep; omega) (.inl (fun e => hj e.symm))

/-- A loop whose body, at point `i`, only looks at and changes point `i`. -/
theorem pointLoop {c : Cloud} (hw : WellFormed c) {body : Nat → Cloud → Outcome Cloud} {Q : Nat → List UInt8 → Prop}
    (hstep : ∀ i < count c, ∀ d, Like c d → point d i = point c i →
      ∃ d', body i d = .ok d' ∧ Like c d' ∧ Q i (point d' i) ∧ ∀ j, j ≠ i → point d' j = point d j) :
    ∃ c', forLoop (count c) body c = .ok c' ∧ Like c c' ∧ ∀ i < count c, Q i (point c' i) := by
  obtain ⟨c', h, h1, h2, -⟩ := forLoop_inv (fun k d => Like c d ∧ (∀ i < k, Q i (point d i)) ∧ ∀ i, k ≤ i → point d i = point c i)
    (n := count c) (body := body) (s := c) ⟨⟨rfl, hw⟩, fun i hi => by omega, fun _ _ => rfl⟩ (by
    rintro k d hk ⟨h1, h2, h3⟩
    obtain ⟨d', e, l, q, r⟩ := hstep k hk d h1 (h3 k le_rfl)
    refine ⟨d', e, l, ?_, ?_⟩
    · intro i hi
      rcases Nat.lt_succ_iff_lt_or_eq.1 hi with hlt | rfl
      · rw [r i (by omega)]; exact h2 i hlt
      · exact q
    · intro i hi
      rw [r i (by omega)]
      exact h3 i (by omega))
  exact ⟨c', h, h1, h2⟩

/-- A loop whose body, at point `i`, only looks at and changes point `i`, and throws at some point. -/
theorem pointLoop_throws {c : Cloud} (hw : WellFormed c) {body : Nat → Cloud → Outcome Cloud} {bad : Nat → Prop}
    (hstep : ∀ i < count c, ¬ bad i → ∀ d, Like c d → point d i = point c i →
      ∃ d', body i d = .ok d' ∧ Like c d' ∧ ∀ j, j ≠ i → point d' j = point d j)
    (hbad : ∀ i < count c, bad i → ∀ d, Like c d → point d i = point c i → body i d = .throws)
    (hex : ∃ i < count c, bad i) : forLoop (count c) body c = .throws := by
  have gen : ∀ n, n ≤ count c → (forLoop n body c = .throws ∧ ∃ i < n, bad i) ∨
      ((∀ i < n, ¬ bad i) ∧ ∃ d, forLoop n body c = .ok d ∧ Like c d ∧ ∀ i, n ≤ i → point d i = point c i) := by
    intro n
    induction n with
    | zero => intro _; exact .inr ⟨fun i hi => by omega, c, rfl, ⟨rfl, hw⟩, fun _ _ => rfl⟩
    | succ n ih =>
      intro hn
      rw [EigenRos.forLoop_succ]
      rcases ih (by omega) with ⟨e, i, hi, hb⟩ | ⟨hnb, d, e, hd, hp⟩
      · rw [e]; exact .inl ⟨rfl, i, by omega, hb⟩
      · rw [e, Outcome.bind_ok]
        by_cases hb : bad n
        · exact .inl ⟨hbad n (by omega) hb d hd (hp n le_rfl), n, by omega, hb⟩
        · obtain ⟨d', e', l, r⟩ := hstep n (by omega) hb d hd (hp n le_rfl)
          refine .inr ⟨?_, d', e', l, ?_⟩
          · intro i hi
            rcases Nat.lt_succ_iff_lt_or_eq.1 hi with hlt | rfl
            · exact hnb i hlt
            · exact hb
          · intro i hi
            rw [r i (by omega)]
            exact hp i (by omega)
  rcases gen (count c) le_rfl with ⟨e, -⟩ | ⟨h, -⟩
  · exact e
  · obtain ⟨i, hi, hb⟩ := hex
    exact absurd hb (h i hi)

end Pcl

end Serpent
