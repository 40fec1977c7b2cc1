import Verif.Props.PclAddFields
import Verif.Props.PclCast
import Verif.Lemmas.PclPoints
import Verif.Spec.PclReal
import Verif.Props.EigenPolar

/-!
# `add_unit_vectors` (C96)
-/

namespace Serpent

namespace Pcl

open EigenRos (forLoop)

variable {cd : Codec ℝ} {rep : FT → ℝ → Prop}

/-- The value that is read after `v` was stored in a field of type `t`. -/
def rounded (cd : Codec ℝ) (t : FT) (v : ℝ) : ℝ := cd.dec t (cd.enc t v)

/-- `u` is the direction of `p`: of length one, and `p` is a positive multiple of it. -/
def IsDirection (p u : Fin 3 → ℝ) : Prop := ∑ i, u i ^ 2 = 1 ∧ ∃ c > 0, ∀ i, p i = c * u i

theorem firstNamed_append {c d : Cloud} {name : String} {f : PField} {new : List PField} (h : FirstNamed c name f)
    (hd : d.fields = c.fields ++ new) : FirstNamed d name f := by
  obtain ⟨before, after, e, hn, hb⟩ := h
  exact ⟨before, after ++ new, by rw [hd, e]; simp, hn, hb⟩

/-- The body of the loop. -/
theorem unitVectorStep_ok (hl : cd.Lawful rep) {c d : Cloud} (h : Like c d) {fx fy fz gx gy gz : PField} {tx ty tz : FT} {i : Nat}
    {p : Fin 3 → ℝ} {u : Fin 3 → ℝ} (hx : HasType c fx tx) (hy : HasType c fy ty) (hz : HasType c fz tz)
    (hgx : HasType c gx .float32) (hgy : HasType c gy .float32) (hgz : HasType c gz .float32)
    (hxy : gx.offset + 4 ≤ gy.offset) (hyz : gy.offset + 4 ≤ gz.offset) (hi : i < count c)
    (px : castTo cd tx .float32 (valueIn cd tx fx.offset (point d i)) = .ok (p 0))
    (py : castTo cd ty .float32 (valueIn cd ty fy.offset (point d i)) = .ok (p 1))
    (pz : castTo cd tz .float32 (valueIn cd tz fz.offset (point d i)) = .ok (p 2))
    (hu : EigenExt.safeNormalise p = .ok u) :
    ∃ d', unitVectorStep (readAs cd .float32 tx fx.offset) (readAs cd .float32 ty fy.offset) (readAs cd .float32 tz fz.offset)
        (writeAs cd .float32 .float32 gx.offset) (writeAs cd .float32 .float32 gy.offset)
        (writeAs cd .float32 .float32 gz.offset) i d = .ok d' ∧ Like c d' ∧
      (valueIn cd .float32 gx.offset (point d' i) = rounded cd .float32 (u 0) ∧
        valueIn cd .float32 gy.offset (point d' i) = rounded cd .float32 (u 1) ∧
        valueIn cd .float32 gz.offset (point d' i) = rounded cd .float32 (u 2) ∧
        ∀ o < gx.offset, (point d' i)[o]? = (point d i)[o]?) ∧
      ∀ j, j ≠ i → point d' j = point d j := by
  have hp : ![p 0, p 1, p 2] = p := by funext k; fin_cases k <;> rfl
  have same : ∀ v, castTo cd .float32 .float32 v = .ok v := fun v => if_pos rfl
  have h4 : ∀ v, (cd.enc .float32 v).length = 4 := fun v => hl.enc_length _ _
  obtain ⟨d1, e1, l1, p1, r1⟩ := writeAs_point hl h hgx hi (same (u 0))
  obtain ⟨d2, e2, l2, p2, r2⟩ := writeAs_point hl l1 hgy hi (same (u 1))
  obtain ⟨d3, e3, l3, p3, r3⟩ := writeAs_point hl l2 hgz hi (same (u 2))
  have hlen : (point d i).length = c.pointStep := by
    rw [point_length' h.wellFormed (h.count.symm ▸ hi), h.pointStep]
  have bx : gx.offset + 4 ≤ c.pointStep := hgx.2
  have by' : gy.offset + 4 ≤ c.pointStep := hgy.2
  have bz : gz.offset + 4 ≤ c.pointStep := hgz.2
  have len1 : (point d1 i).length = c.pointStep := by rw [p1, patch_length (by rw [h4, hlen]; exact bx), hlen]
  have len2 : (point d2 i).length = c.pointStep := by rw [p2, patch_length (by rw [h4, len1]; exact by'), len1]
  refine ⟨d3, ?_, l3, ⟨?_, ?_, ?_, ?_⟩, ?_⟩
  · unfold unitVectorStep
    rw [readAs_point h _ hx hi, px, Outcome.bind_ok, readAs_point h _ hy hi, py, Outcome.bind_ok, readAs_point h _ hz hi, pz,
      Outcome.bind_ok, hp, hu, Outcome.bind_ok, e1, Outcome.bind_ok, e2, Outcome.bind_ok, e3]
  · rw [p3, valueIn_patch_other (by rw [h4, len2]; exact bz) (.inl (by show gx.offset + 4 ≤ _; omega)), p2,
      valueIn_patch_other (by rw [h4, len1]; exact by') (.inl (by show gx.offset + 4 ≤ _; omega)), p1,
      valueIn_patch_same hl _ (by rw [hlen]; exact bx)]
    rfl
  · rw [p3, valueIn_patch_other (by rw [h4, len2]; exact bz) (.inl (by show gy.offset + 4 ≤ _; omega)), p2,
      valueIn_patch_same hl _ (by rw [len1]; exact by')]
    rfl
  · rw [p3, valueIn_patch_same hl _ (by rw [len2]; exact bz)]
    rfl
  · intro o ho
    rw [p3, patch_getElem? (by rw [h4, len2]; exact bz), if_neg (by omega), p2, patch_getElem? (by rw [h4, len1]; exact by'),
      if_neg (by omega), p1, patch_getElem? (by rw [h4, hlen]; exact bx), if_neg (by omega)]
  · intro j hj
    rw [r3 j hj, r2 j hj, r1 j hj]

/-- C96 (what holds). For a cloud whose last field ends last, without padding that would not fit, and without fields of the new
names: if a point is the origin, `add_unit_vectors` throws. Otherwise the result has the fields of the source and three new ones;
in each point they hold the direction of the point (rounded to `float`), and all bytes of the old fields are unchanged. -/
theorem C96_unit_vectors_partial (hl : cd.Lawful rep) {src : Cloud} {fx fy fz : PField} {tx ty tz : FT} {p : Nat → Fin 3 → ℝ}
    (hw : WellFormed src) (nx : FirstNamed src "x" fx) (ny : FirstNamed src "y" fy) (nz : FirstNamed src "z" fz)
    (hx : HasType src fx tx) (hy : HasType src fy ty) (hz : HasType src fz tz)
    (px : ∀ i < count src, castTo cd tx .float32 (value cd tx src fx i) = .ok (p i 0))
    (py : ∀ i < count src, castTo cd ty .float32 (value cd ty src fy i) = .ok (p i 1))
    (pz : ∀ i < count src, castTo cd tz .float32 (value cd tz src fz i) = .ok (p i 2))
    (hnew : ∀ f ∈ src.fields, f.name ≠ "ux" ∧ f.name ≠ "uy" ∧ f.name ≠ "uz")
    (hlast : ∀ f ∈ src.fields, fieldEnd f ≤ lastEnd src.fields) (hstep : src.pointStep ≤ lastEnd src.fields + 12)
    (hfit : lastEnd src.fields + 12 < 2 ^ 32) (hbytes : count src * (lastEnd src.fields + 12) < 2 ^ 32)
    (hwidth : src.width * (lastEnd src.fields + 12) < 2 ^ 32) :
    ((∃ i < count src, p i = 0) → addUnitVectors cd src = .throws) ∧
    ((∀ i < count src, p i ≠ 0) → ∃ dest gx gy gz, addUnitVectors cd src = .ok dest ∧ WellFormed dest ∧ count dest = count src ∧
      dest.header = src.header ∧ dest.fields = src.fields ++ [gx, gy, gz] ∧
      gx.name = "ux" ∧ gy.name = "uy" ∧ gz.name = "uz" ∧
      HasType dest gx .float32 ∧ HasType dest gy .float32 ∧ HasType dest gz .float32 ∧
      (∀ i < count src, ∃ u, IsDirection (p i) u ∧ value cd .float32 dest gx i = rounded cd .float32 (u 0) ∧
        value cd .float32 dest gy i = rounded cd .float32 (u 1) ∧ value cd .float32 dest gz i = rounded cd .float32 (u 2)) ∧
      ∀ i < count src, ∀ f ∈ src.fields, ∀ o, f.offset ≤ o → o < fieldEnd f → o < src.pointStep →
        dest.data[i * dest.pointStep + o]? = src.data[i * src.pointStep + o]?) := by
  have mem : ∀ {name f}, FirstNamed src name f → f ∈ src.fields := by
    rintro name f ⟨b, a, e, -⟩; rw [e]; simp
  have hne : src.fields ≠ [] := fun e => by have := mem nx; rw [e] at this; cases this
  obtain ⟨d0, e0, w0, c0, h0, -, -, s0, ⟨new, hf, hnames, hdt, hafter, hpw⟩, b0⟩ :=
    C59_add_fields_partial (names := ["ux", "uy", "uz"]) (t := .float32) (n := 1) hw (.inr (by simp)) hlast
      (by simpa [FT.size] using hstep) (by simpa [FT.size] using hfit) (by simpa [FT.size] using hbytes) (by simpa [FT.size] using hwidth)
  obtain ⟨gx, gy, gz, rfl⟩ : ∃ gx gy gz : PField, new = [gx, gy, gz] := by
    rcases new with _ | ⟨a, _ | ⟨b, _ | ⟨c, _ | ⟨d, l⟩⟩⟩⟩ <;> simp at hnames
    exact ⟨a, b, c, rfl⟩
  simp only [List.map_cons, List.map_nil, List.cons.injEq, and_true] at hnames
  obtain ⟨n1, n2, n3⟩ := hnames
  have hd1 := hdt gx (by simp)
  have hd2 := hdt gy (by simp)
  have hd3 := hdt gz (by simp)
  have size1 : ∀ g : PField, g.datatype = FT.float32.code → g.count = 1 → fieldEnd g = g.offset + 4 := by
    intro g a b
    unfold fieldEnd
    rw [a, b]
    rfl
  have t1 : HasType d0 gx .float32 := ⟨hd1.1, by have := hd1.2.2; rw [size1 gx hd1.1 hd1.2.1] at this; exact this⟩
  have t2 : HasType d0 gy .float32 := ⟨hd2.1, by have := hd2.2.2; rw [size1 gy hd2.1 hd2.2.1] at this; exact this⟩
  have t3 : HasType d0 gz .float32 := ⟨hd3.1, by have := hd3.2.2; rw [size1 gz hd3.1 hd3.2.1] at this; exact this⟩
  have hxy : gx.offset + 4 ≤ gy.offset := by
    have := (List.pairwise_cons.1 hpw).1 gy (by simp)
    rw [size1 gx hd1.1 hd1.2.1] at this; exact this
  have hyz : gy.offset + 4 ≤ gz.offset := by
    have := (List.pairwise_cons.1 (List.pairwise_cons.1 hpw).2).1 gz (by simp)
    rw [size1 gy hd2.1 hd2.2.1] at this; exact this
  have hs0 : src.pointStep ≤ d0.pointStep := by rw [s0]; simpa [FT.size] using hstep
  have keep : ∀ {f : PField} {t : FT}, HasType src f t → HasType d0 f t := fun h => ⟨h.1, h.2.trans hs0⟩
  have vals : ∀ {f : PField} {t : FT}, HasType src f t → ∀ i < count src, value cd t d0 f i = value cd t src f i := by
    intro f t h i hi
    unfold value bytesAt
    congr 1
    apply slice_congr
    intro j hj
    have := h.2
    have := b0 i (f.offset + j) hi (by omega)
    rw [Nat.add_assoc, Nat.add_assoc]
    exact this
  have fn1 : FirstNamed d0 "ux" gx := ⟨src.fields, [gy, gz], by rw [hf], n1, fun f h => (hnew f h).1⟩
  have fn2 : FirstNamed d0 "uy" gy := ⟨src.fields ++ [gx], [gz], by rw [hf]; simp, n2, by
    intro f h
    rcases List.mem_append.1 h with h | h
    · exact (hnew f h).2.1
    · rw [List.mem_singleton.1 h, n1]; decide⟩
  have fn3 : FirstNamed d0 "uz" gz := ⟨src.fields ++ [gx, gy], [], by rw [hf]; simp, n3, by
    intro f h
    rcases List.mem_append.1 h with h | h
    · exact (hnew f h).2.2
    · rcases List.mem_cons.1 h with rfl | h
      · rw [n1]; decide
      · rw [List.mem_singleton.1 h, n2]; decide⟩
  have hrun : addUnitVectors cd src = forLoop (count d0) (unitVectorStep (readAs cd .float32 tx fx.offset)
      (readAs cd .float32 ty fy.offset) (readAs cd .float32 tz fz.offset) (writeAs cd .float32 .float32 gx.offset)
      (writeAs cd .float32 .float32 gy.offset) (writeAs cd .float32 .float32 gz.offset)) d0 := by
    unfold addUnitVectors
    rw [e0, Outcome.bind_ok, getField_first (firstNamed_append nx hf), Outcome.bind_ok, getter_ok _ hx.1, Outcome.bind_ok,
      getField_first (firstNamed_append ny hf), Outcome.bind_ok, getter_ok _ hy.1, Outcome.bind_ok,
      getField_first (firstNamed_append nz hf), Outcome.bind_ok, getter_ok _ hz.1, Outcome.bind_ok,
      getField_first fn1, Outcome.bind_ok, setterTyped_ok _ hd1.1, Outcome.bind_ok,
      getField_first fn2, Outcome.bind_ok, setterTyped_ok _ hd2.1, Outcome.bind_ok,
      getField_first fn3, Outcome.bind_ok, setterTyped_ok _ hd3.1, Outcome.bind_ok, w0.sizePoints]
  have rd : ∀ i < count src, ∀ d, point d i = point d0 i →
      castTo cd tx .float32 (valueIn cd tx fx.offset (point d i)) = .ok (p i 0) ∧
      castTo cd ty .float32 (valueIn cd ty fy.offset (point d i)) = .ok (p i 1) ∧
      castTo cd tz .float32 (valueIn cd tz fz.offset (point d i)) = .ok (p i 2) := by
    intro i hi d hd
    rw [hd, ← value_eq_point (keep hx), ← value_eq_point (keep hy), ← value_eq_point (keep hz), vals hx i hi, vals hy i hi,
      vals hz i hi]
    exact ⟨px i hi, py i hi, pz i hi⟩
  constructor
  · rintro hzero
    rw [hrun]
    refine pointLoop_throws (bad := fun i => p i = 0) w0 ?_ ?_ (by rw [c0]; exact hzero)
    · intro i hi hnb d hd hpt
      rw [c0] at hi
      obtain ⟨a, b, c⟩ := rd i hi d hpt
      cases hu : EigenExt.safeNormalise (p i) with
      | throws => exact absurd ((EigenExt.C80_normalise (p i)).1.1 hu) hnb
      | ub => exact absurd hu (EigenExt.C80_normalise (p i)).2.1
      | ok u =>
        obtain ⟨d', e, l, -, r⟩ := unitVectorStep_ok hl hd (keep hx) (keep hy) (keep hz) t1 t2 t3 hxy hyz (by rw [c0]; exact hi)
          a b c hu
        exact ⟨d', e, l, r⟩
    · intro i hi hb d hd hpt
      rw [c0] at hi
      obtain ⟨a, b, c⟩ := rd i hi d hpt
      have hi' : i < count d0 := by rw [c0]; exact hi
      unfold unitVectorStep
      rw [readAs_point hd _ (keep hx) hi', a, Outcome.bind_ok, readAs_point hd _ (keep hy) hi', b, Outcome.bind_ok,
        readAs_point hd _ (keep hz) hi', c, Outcome.bind_ok]
      have hp : ![p i 0, p i 1, p i 2] = p i := by funext k; fin_cases k <;> rfl
      rw [hp, (EigenExt.C80_normalise (p i)).1.2 hb]
      rfl
  · intro hnz
    obtain ⟨dest, e, l, hq⟩ := pointLoop w0 (body := unitVectorStep (readAs cd .float32 tx fx.offset)
      (readAs cd .float32 ty fy.offset) (readAs cd .float32 tz fz.offset) (writeAs cd .float32 .float32 gx.offset)
      (writeAs cd .float32 .float32 gy.offset) (writeAs cd .float32 .float32 gz.offset))
      (Q := fun i q => (∃ u, IsDirection (p i) u ∧ valueIn cd .float32 gx.offset q = rounded cd .float32 (u 0) ∧
        valueIn cd .float32 gy.offset q = rounded cd .float32 (u 1) ∧ valueIn cd .float32 gz.offset q = rounded cd .float32 (u 2)) ∧
        ∀ o < gx.offset, q[o]? = (point d0 i)[o]?) (by
      intro i hi d hd hpt
      rw [c0] at hi
      obtain ⟨a, b, c⟩ := rd i hi d hpt
      cases hu : EigenExt.safeNormalise (p i) with
      | throws => exact absurd ((EigenExt.C80_normalise (p i)).1.1 hu) (hnz i hi)
      | ub => exact absurd hu (EigenExt.C80_normalise (p i)).2.1
      | ok u =>
        obtain ⟨d', e, l, ⟨v1, v2, v3, v4⟩, r⟩ := unitVectorStep_ok hl hd (keep hx) (keep hy) (keep hz) t1 t2 t3 hxy hyz
          (by rw [c0]; exact hi) a b c hu
        have := ((EigenExt.C80_normalise (p i)).2.2 u).1 hu
        refine ⟨d', e, l, ⟨⟨u, this.2, v1, v2, v3⟩, ?_⟩, r⟩
        intro o ho
        rw [v4 o ho, hpt])
    refine ⟨dest, gx, gy, gz, by rw [hrun, e], l.wellFormed, by rw [l.count, c0], ?_, by rw [l.fields, hf], n1, n2, n3,
      l.hasType t1, l.hasType t2, l.hasType t3, ?_, ?_⟩
    · rw [← h0]; have := congrArg Cloud.header l.descr; exact this
    · intro i hi
      obtain ⟨u, hu, v1, v2, v3⟩ := (hq i (by rw [c0]; exact hi)).1
      refine ⟨u, hu, ?_, ?_, ?_⟩
      · rw [value_eq_point (l.hasType t1), v1]
      · rw [value_eq_point (l.hasType t2), v2]
      · rw [value_eq_point (l.hasType t3), v3]
    · intro i hi f hfm o ho1 ho2 ho3
      rw [l.pointStep, ← b0 i o hi ho3]
      have hg := hafter gx (by simp) f hfm
      have := (hq i (by rw [c0]; exact hi)).2 o (by omega)
      rw [point_getElem? (by rw [l.pointStep]; omega), point_getElem? (by omega), l.pointStep] at this
      exact this

theorem appendFields_prefix (fs : List PField) (names : List String) (t : FT) (n : Nat) :
    ∃ new, appendFields fs names t n = fs ++ new := by
  induction names generalizing fs with
  | nil => exact ⟨[], by simp [appendFields]⟩
  | cons a as ih =>
    obtain ⟨new, h⟩ := ih (fs ++ [⟨a, match fs.getLast? with
      | none => 0
      | some l => pointStep l, t.code, n⟩])
    exact ⟨_, h.trans (List.append_assoc _ _ _)⟩

/-- C96 fails when the cloud already has a field `ux` of another type: the call is refused. -/
theorem C96_fails_existing {src : Cloud} {g : PField} (h : FirstNamed src "ux" g) (ht : g.datatype ≠ FT.float32.code) :
    ∀ d, addUnitVectors cd src ≠ .ok d := by
  intro d
  unfold addUnitVectors
  cases e : addFields src ["ux", "uy", "uz"] .float32 1 with
  | throws => simp
  | ub => simp
  | ok d0 =>
    rw [Outcome.bind_ok]
    cases getField d0 "x" with
    | throws => simp
    | ub => simp
    | ok x =>
    rw [Outcome.bind_ok]
    cases getter cd .float32 x with
    | throws => simp
    | ub => simp
    | ok gx =>
    rw [Outcome.bind_ok]
    cases getField d0 "y" with
    | throws => simp
    | ub => simp
    | ok y =>
    rw [Outcome.bind_ok]
    cases getter cd .float32 y with
    | throws => simp
    | ub => simp
    | ok gy =>
    rw [Outcome.bind_ok]
    cases getField d0 "z" with
    | throws => simp
    | ub => simp
    | ok z =>
    rw [Outcome.bind_ok]
    cases getter cd .float32 z with
    | throws => simp
    | ub => simp
    | ok gz =>
    rw [Outcome.bind_ok]
    have hf : ∃ new, d0.fields = src.fields ++ new := by
      unfold addFields at e
      dsimp only at e
      cases hl : (appendFields src.fields ["ux", "uy", "uz"] .float32 1).getLast? with
      | none => rw [hl] at e; cases e
      | some last =>
        rw [hl] at e
        dsimp only at e
        have := Stereo.forLoop_ok_inv (fun _ (c : Cloud) => c.fields = appendFields src.fields ["ux", "uy", "uz"] .float32 1) rfl
          (by
            intro i s s' hi hs h'
            cases h1 : readBytes src.data (i * src.pointStep) src.pointStep with
            | ok bs =>
              rw [h1, Outcome.bind_ok] at h'
              cases h2 : writeBytes s.data (i * s.pointStep) bs with
              | ok data => rw [h2, Outcome.bind_ok] at h'; rw [← Outcome.ok.inj h']; exact hs
              | throws => rw [h2] at h'; cases h'
              | ub => rw [h2] at h'; cases h'
            | throws => rw [h1] at h'; cases h'
            | ub => rw [h1] at h'; cases h') e
        obtain ⟨new, hn⟩ := appendFields_prefix src.fields ["ux", "uy", "uz"] .float32 1
        exact ⟨new, this.trans hn⟩
    obtain ⟨new, hf⟩ := hf
    rw [getField_first (firstNamed_append h hf), Outcome.bind_ok]
    unfold setterTyped
    rw [if_pos (fun e => ht e.symm)]
    simp

/-- A cloud of two points, (1, 2, 0) and (0, 0, -1). -/
def twoVectors : Cloud :=
  ⟨⟨0, 0, "lidar"⟩, 1, 2, [⟨"x", 0, 7, 1⟩, ⟨"y", 4, 7, 1⟩, ⟨"z", 8, 7, 1⟩], false, 12, 24,
    [0, 0, 128, 63, 0, 0, 0, 64, 0, 0, 0, 0, 0, 0, 0, 0, 0, 0, 0, 0, 0, 0, 128, 191], true⟩

/-- The hypotheses are met by two points that are not the origin. -/
example : ∃ dest, addUnitVectors Ieee.realCodec twoVectors = .ok dest ∧ count dest = 2 := by
  have hw : WellFormed twoVectors := ⟨rfl, rfl, by decide, by decide⟩
  have v1 : Ieee.dec .float32 [0, 0, 128, 63] = 1 := by decide +kernel
  have v2 : Ieee.dec .float32 [0, 0, 128, 191] = -1 := by decide +kernel
  obtain ⟨-, h⟩ := C96_unit_vectors_partial (src := twoVectors) (fx := ⟨"x", 0, 7, 1⟩) (fy := ⟨"y", 4, 7, 1⟩)
    (fz := ⟨"z", 8, 7, 1⟩) (tx := .float32) (ty := .float32) (tz := .float32)
    (p := fun i => ![value Ieee.realCodec .float32 twoVectors ⟨"x", 0, 7, 1⟩ i,
      value Ieee.realCodec .float32 twoVectors ⟨"y", 4, 7, 1⟩ i, value Ieee.realCodec .float32 twoVectors ⟨"z", 8, 7, 1⟩ i])
    Ieee.realLawful hw ⟨[], [⟨"y", 4, 7, 1⟩, ⟨"z", 8, 7, 1⟩], rfl, rfl, by simp⟩
    ⟨[⟨"x", 0, 7, 1⟩], [⟨"z", 8, 7, 1⟩], rfl, rfl, by simp⟩
    ⟨[⟨"x", 0, 7, 1⟩, ⟨"y", 4, 7, 1⟩], [], rfl, rfl, by simp⟩ ⟨rfl, by decide⟩ ⟨rfl, by decide⟩ ⟨rfl, by decide⟩
    (fun i _ => if_pos rfl) (fun i _ => if_pos rfl) (fun i _ => if_pos rfl) (by decide) (by decide) (by decide) (by decide)
    (by decide) (by decide)
  obtain ⟨dest, -, -, -, e, -, hc, -⟩ := h (by
    intro i hi h0
    have : i = 0 ∨ i = 1 := by
      have : i < 2 := hi
      omega
    rcases this with rfl | rfl
    · have h1 := congrFun h0 0
      have h2 : ((Ieee.dec .float32 [0, 0, 128, 63] : ℚ) : ℝ) = 0 := h1
      rw [v1] at h2
      norm_num at h2
    · have h1 := congrFun h0 2
      have h2 : ((Ieee.dec .float32 [0, 0, 128, 191] : ℚ) : ℝ) = 0 := h1
      rw [v2] at h2
      norm_num at h2)
  exact ⟨dest, e, hc⟩

end Pcl

end Serpent
