import Verif.Lemmas.PclDeskew
import Verif.Props.PclUnitVectors

/-!
# Deskewing (C61)
-/

namespace Serpent

namespace Pcl

open EigenExt
open EigenRos (forLoop epsilon)

variable {cd : Codec ℝ} {rep : FT → ℝ → Prop}

/-- Body of the loop. -/
theorem deskewStep_ok (hl : cd.Lawful rep) {c d : Cloud} (h : Like c d) {fx fy fz ft : PField} {tx ty tz tt : FT} {i : Nat}
    {skew : Iso ℝ} {dt : ℝ} {newTime stamp : Nat} {p : Fin 3 → ℝ} {τ : ℝ} (hx : HasType c fx tx) (hy : HasType c fy ty)
    (hz : HasType c fz tz) (ht : HasType c ft tt)
    (hxy : Disjoint fx tx fy ty) (hxz : Disjoint fx tx fz tz) (hxt : Disjoint fx tx ft tt) (hyz : Disjoint fy ty fz tz)
    (hyt : Disjoint fy ty ft tt) (hzt : Disjoint fz tz ft tt) (hi : i < count c)
    (px : castTo cd tx .float64 (valueIn cd tx fx.offset (point d i)) = .ok (p 0))
    (py : castTo cd ty .float64 (valueIn cd ty fy.offset (point d i)) = .ok (p 1))
    (pz : castTo cd tz .float64 (valueIn cd tz fz.offset (point d i)) = .ok (p 2))
    (pt : castTo cd tt .float64 (valueIn cd tt ft.offset (point d i)) = .ok τ)
    (cx : ∀ v, ∃ w, castTo cd .float64 tx v = .ok w) (cy : ∀ v, ∃ w, castTo cd .float64 ty v = .ok w)
    (cz : ∀ v, ∃ w, castTo cd .float64 tz v = .ok w) (hzero : rep tt 0) :
    ∃ d', deskewStep skew dt newTime stamp (readAs cd .float64 tx fx.offset) (readAs cd .float64 ty fy.offset)
        (readAs cd .float64 tz fz.offset) (readAs cd .float64 tt ft.offset) (writeAs cd .float64 tx fx.offset)
        (writeAs cd .float64 ty fy.offset) (writeAs cd .float64 tz fz.offset) (writeAs cd .float32 tt ft.offset) i d = .ok d' ∧
      Like c d' ∧
      (Stored cd .float64 tx (deskewPoint skew dt newTime stamp p τ 0) (valueIn cd tx fx.offset (point d' i)) ∧
        Stored cd .float64 ty (deskewPoint skew dt newTime stamp p τ 1) (valueIn cd ty fy.offset (point d' i)) ∧
        Stored cd .float64 tz (deskewPoint skew dt newTime stamp p τ 2) (valueIn cd tz fz.offset (point d' i)) ∧
        valueIn cd tt ft.offset (point d' i) = 0 ∧
        ∀ o, ¬ (fx.offset ≤ o ∧ o < fx.offset + tx.size) → ¬ (fy.offset ≤ o ∧ o < fy.offset + ty.size) →
          ¬ (fz.offset ≤ o ∧ o < fz.offset + tz.size) → ¬ (ft.offset ≤ o ∧ o < ft.offset + tt.size) →
          (point d' i)[o]? = (point d i)[o]?) ∧
      ∀ j, j ≠ i → point d' j = point d j := by
  have hp : ![p 0, p 1, p 2] = p := by funext k; fin_cases k <;> rfl
  set p' := deskewPoint skew dt newTime stamp p τ with hp'
  obtain ⟨wx, ex⟩ := cx (p' 0)
  obtain ⟨wy, ey⟩ := cy (p' 1)
  obtain ⟨wz, ez⟩ := cz (p' 2)
  have et : castTo cd .float32 tt 0 = .ok 0 := castTo_of_rep hl _ hzero
  obtain ⟨d1, e1, l1, p1, r1⟩ := writeAs_point hl h hx hi ex
  obtain ⟨d2, e2, l2, p2, r2⟩ := writeAs_point hl l1 hy hi ey
  obtain ⟨d3, e3, l3, p3, r3⟩ := writeAs_point hl l2 hz hi ez
  obtain ⟨d4, e4, l4, p4, r4⟩ := writeAs_point hl l3 ht hi et
  have hlen : (point d i).length = c.pointStep := by
    rw [point_length' h.wellFormed (h.count.symm ▸ hi), h.pointStep]
  have bx := hx.2
  have by' := hy.2
  have bz := hz.2
  have bt := ht.2
  have len1 : (point d1 i).length = c.pointStep := by rw [p1, patch_length (by rw [hl.enc_length, hlen]; exact bx), hlen]
  have len2 : (point d2 i).length = c.pointStep := by rw [p2, patch_length (by rw [hl.enc_length, len1]; exact by'), len1]
  have len3 : (point d3 i).length = c.pointStep := by rw [p3, patch_length (by rw [hl.enc_length, len2]; exact bz), len2]
  have k1 : fx.offset + (cd.enc tx wx).length ≤ (point d i).length := by rw [hl.enc_length, hlen]; exact bx
  have k2 : fy.offset + (cd.enc ty wy).length ≤ (point d1 i).length := by rw [hl.enc_length, len1]; exact by'
  have k3 : fz.offset + (cd.enc tz wz).length ≤ (point d2 i).length := by rw [hl.enc_length, len2]; exact bz
  have k4 : ft.offset + (cd.enc tt 0).length ≤ (point d3 i).length := by rw [hl.enc_length, len3]; exact bt
  refine ⟨d4, ?_, l4, ⟨⟨wx, ex, ?_⟩, ⟨wy, ey, ?_⟩, ⟨wz, ez, ?_⟩, ?_, ?_⟩, ?_⟩
  · unfold deskewStep
    rw [readAs_point h _ hx hi, px, Outcome.bind_ok, readAs_point h _ hy hi, py, Outcome.bind_ok, readAs_point h _ hz hi, pz,
      Outcome.bind_ok, readAs_point h _ ht hi, pt, Outcome.bind_ok, hp]
    dsimp only
    rw [← hp', e1, Outcome.bind_ok, e2, Outcome.bind_ok, e3, Outcome.bind_ok, e4]
  · rw [p4, valueIn_patch_other k4 (by rw [hl.enc_length]; exact hxt), p3,
      valueIn_patch_other k3 (by rw [hl.enc_length]; exact hxz), p2, valueIn_patch_other k2 (by rw [hl.enc_length]; exact hxy), p1,
      valueIn_patch_same hl _ (by rw [hlen]; exact bx)]
  · rw [p4, valueIn_patch_other k4 (by rw [hl.enc_length]; exact hyt), p3,
      valueIn_patch_other k3 (by rw [hl.enc_length]; exact hyz), p2, valueIn_patch_same hl _ (by rw [len1]; exact by')]
  · rw [p4, valueIn_patch_other k4 (by rw [hl.enc_length]; exact hzt), p3, valueIn_patch_same hl _ (by rw [len2]; exact bz)]
  · rw [p4, valueIn_patch_same hl _ (by rw [len3]; exact bt), hl.dec_enc _ _ hzero]
  · intro o h1 h2 h3 h4
    rw [p4, patch_getElem? k4, hl.enc_length, if_neg h4, p3, patch_getElem? k3, hl.enc_length, if_neg h3, p2, patch_getElem? k2,
      hl.enc_length, if_neg h2, p1, patch_getElem? k1, hl.enc_length, if_neg h1]
  · intro j hj
    rw [r4 j hj, r3 j hj, r2 j hj, r1 j hj]

/-- A cloud with coordinates and times: the first fields with the names `x`, `y`, `z` and `t` have types `tx`, `ty`, `tz` and `tt`,
lie within the point and do not overlap, and hold the points `p` and times `τ`; numbers can be converted to the types of the
coordinates. -/
structure Timed (cd : Codec ℝ) (rep : FT → ℝ → Prop) (c : Cloud) (fx fy fz ft : PField) (tx ty tz tt : FT)
    (p : Nat → Fin 3 → ℝ) (τ : Nat → ℝ) : Prop where
  nx : FirstNamed c "x" fx
  ny : FirstNamed c "y" fy
  nz : FirstNamed c "z" fz
  nt : FirstNamed c "t" ft
  hx : HasType c fx tx
  hy : HasType c fy ty
  hz : HasType c fz tz
  ht : HasType c ft tt
  xy : Disjoint fx tx fy ty
  xz : Disjoint fx tx fz tz
  xt : Disjoint fx tx ft tt
  yz : Disjoint fy ty fz tz
  yt : Disjoint fy ty ft tt
  zt : Disjoint fz tz ft tt
  px : ∀ i < count c, value cd tx c fx i = p i 0 ∧ rep .float64 (p i 0)
  py : ∀ i < count c, value cd ty c fy i = p i 1 ∧ rep .float64 (p i 1)
  pz : ∀ i < count c, value cd tz c fz i = p i 2 ∧ rep .float64 (p i 2)
  pt : ∀ i < count c, value cd tt c ft i = τ i ∧ rep .float64 (τ i)
  cx : ∀ v, ∃ w, castTo cd .float64 tx v = .ok w
  cy : ∀ v, ∃ w, castTo cd .float64 ty v = .ok w
  cz : ∀ v, ∃ w, castTo cd .float64 tz v = .ok w
  zero : rep tt 0

theorem deskew_ok (hl : cd.Lawful rep) {src : Cloud} {fx fy fz ft : PField} {tx ty tz tt : FT} {p : Nat → Fin 3 → ℝ} {τ : Nat → ℝ}
    {skew : Iso ℝ} {dt : ℝ} {newTime : Nat} (hw : WellFormed src) (h : Timed cd rep src fx fy fz ft tx ty tz tt p τ)
    (hskew : ¬ ApproxIdentity skew) (hdt : 0 < dt) :
    ∃ c', deskew cd skew dt newTime src = .ok c' ∧ Like { src with header := { src.header with stamp := newTime } } c' ∧
      ∀ i < count src,
        Stored cd .float64 tx (deskewPoint skew dt newTime src.header.stamp (p i) (τ i) 0) (value cd tx c' fx i) ∧
        Stored cd .float64 ty (deskewPoint skew dt newTime src.header.stamp (p i) (τ i) 1) (value cd ty c' fy i) ∧
        Stored cd .float64 tz (deskewPoint skew dt newTime src.header.stamp (p i) (τ i) 2) (value cd tz c' fz i) ∧
        value cd tt c' ft i = 0 ∧
        ∀ o < src.pointStep, ¬ (fx.offset ≤ o ∧ o < fx.offset + tx.size) → ¬ (fy.offset ≤ o ∧ o < fy.offset + ty.size) →
          ¬ (fz.offset ≤ o ∧ o < fz.offset + tz.size) → ¬ (ft.offset ≤ o ∧ o < ft.offset + tt.size) →
          c'.data[i * src.pointStep + o]? = src.data[i * src.pointStep + o]? := by
  unfold deskew
  dsimp only
  rw [if_neg hskew, if_neg (not_le.2 hdt)]
  set c : Cloud := { src with header := { src.header with stamp := newTime } } with hc
  have hwc : WellFormed c := ⟨hw.row, hw.length, hw.bytes, hw.points⟩
  have hx : HasType c fx tx := h.hx
  have hy : HasType c fy ty := h.hy
  have hz : HasType c fz tz := h.hz
  have ht : HasType c ft tt := h.ht
  obtain ⟨c', e, l, hq⟩ := pointLoop hwc (body := deskewStep skew dt newTime src.header.stamp (readAs cd .float64 tx fx.offset)
      (readAs cd .float64 ty fy.offset) (readAs cd .float64 tz fz.offset) (readAs cd .float64 tt ft.offset)
      (writeAs cd .float64 tx fx.offset) (writeAs cd .float64 ty fy.offset) (writeAs cd .float64 tz fz.offset)
      (writeAs cd .float32 tt ft.offset))
    (Q := fun i q => Stored cd .float64 tx (deskewPoint skew dt newTime src.header.stamp (p i) (τ i) 0) (valueIn cd tx fx.offset q) ∧
      Stored cd .float64 ty (deskewPoint skew dt newTime src.header.stamp (p i) (τ i) 1) (valueIn cd ty fy.offset q) ∧
      Stored cd .float64 tz (deskewPoint skew dt newTime src.header.stamp (p i) (τ i) 2) (valueIn cd tz fz.offset q) ∧
      valueIn cd tt ft.offset q = 0 ∧
      ∀ o, ¬ (fx.offset ≤ o ∧ o < fx.offset + tx.size) → ¬ (fy.offset ≤ o ∧ o < fy.offset + ty.size) →
          ¬ (fz.offset ≤ o ∧ o < fz.offset + tz.size) → ¬ (ft.offset ≤ o ∧ o < ft.offset + tt.size) →
          q[o]? = (point c i)[o]?) (by
    intro i hi d hd hpt
    have hi' : i < count src := hi
    have rd : ∀ {f : PField} {t : FT} {v : ℝ}, HasType c f t → value cd t src f i = v ∧ rep .float64 v →
        castTo cd t .float64 (valueIn cd t f.offset (point d i)) = .ok v := by
      intro f t v hf hv
      rw [hpt, ← value_eq_point hf, show value cd t c f i = v from hv.1]
      exact castTo_of_rep hl _ hv.2
    obtain ⟨d', e, l, ⟨q1, q2, q3, q4, q5⟩, r⟩ := deskewStep_ok (skew := skew) (dt := dt) (newTime := newTime)
      (stamp := src.header.stamp) hl hd hx hy hz ht h.xy h.xz h.xt h.yz h.yt h.zt hi (rd hx (h.px i hi')) (rd hy (h.py i hi'))
      (rd hz (h.pz i hi')) (rd ht (h.pt i hi')) h.cx h.cy h.cz h.zero
    refine ⟨d', e, l, ⟨q1, q2, q3, q4, ?_⟩, r⟩
    intro o h1 h2 h3 h4
    rw [q5 o h1 h2 h3 h4, hpt])
  have fnx : FirstNamed c "x" fx := h.nx
  have fny : FirstNamed c "y" fy := h.ny
  have fnz : FirstNamed c "z" fz := h.nz
  have fnt : FirstNamed c "t" ft := h.nt
  refine ⟨c', ?_, l, ?_⟩
  · unfold deskewFields
    rw [getField_first fnx, Outcome.bind_ok, getField_first fny, Outcome.bind_ok, getField_first fnz, Outcome.bind_ok,
      getField_first fnt, Outcome.bind_ok, getter_ok _ hx.1, Outcome.bind_ok, getter_ok _ hy.1, Outcome.bind_ok,
      getter_ok _ hz.1, Outcome.bind_ok, getter_ok _ ht.1, Outcome.bind_ok, setter_ok _ hx.1, Outcome.bind_ok,
      setter_ok _ hy.1, Outcome.bind_ok, setter_ok _ hz.1, Outcome.bind_ok, setter_ok _ ht.1, Outcome.bind_ok, hwc.sizePoints]
    exact e
  · intro i hi
    obtain ⟨q1, q2, q3, q4, q5⟩ := hq i hi
    refine ⟨?_, ?_, ?_, ?_, ?_⟩
    · rw [value_eq_point (l.hasType hx)]; exact q1
    · rw [value_eq_point (l.hasType hy)]; exact q2
    · rw [value_eq_point (l.hasType hz)]; exact q3
    · rw [value_eq_point (l.hasType ht)]; exact q4
    · intro o ho h1 h2 h3 h4
      have hps : c'.pointStep = src.pointStep := l.pointStep
      have := q5 o h1 h2 h3 h4
      rw [point_getElem? (by rw [hps]; exact ho), point_getElem? (c := c) ho, hps] at this
      exact this

/-- C61 (what holds). The skew turns by `θ` about the axis `a` and moves by `skew.t` during `dt`. When the new time is not before
the stamp and the skew is not tiny, `deskew` succeeds: the stamp is the new time and every point time is zero; the new
coordinates of each point are those of a point `p'` such that `p'` seen from the pose at the new time is the measured point seen
from the pose at the time of the measurement; no other byte changes. Missing: skews that turn by almost nothing, half turns, and
new times before the stamp. -/
theorem C61_deskew_partial (hl : cd.Lawful rep) {src : Cloud} {fx fy fz ft : PField} {tx ty tz tt : FT} {p : Nat → Fin 3 → ℝ}
    {τ : Nat → ℝ} {skew : Iso ℝ} {dt : ℝ} {newTime : Nat} {a : Fin 3 → ℝ} {θ : ℝ} (hw : WellFormed src)
    (h : Timed cd rep src fx fy fz ft tx ty tz tt p τ) (hskew : ¬ ApproxIdentity skew) (hdt : 0 < dt)
    (ha : ∑ i, a i ^ 2 = 1) (hR : skew.R = rotationAbout a θ) (h0 : 0 ≤ θ) (h1 : θ < Real.pi)
    (hθ : θ = 0 ∨ Real.cos (θ / 2) < 1 - epsilon) (hstamp : src.header.stamp ≤ newTime) (h64 : newTime < 2 ^ 64) :
    ∃ c', deskew cd skew dt newTime src = .ok c' ∧ WellFormed c' ∧
      { c' with data := src.data } = { src with header := { src.header with stamp := newTime } } ∧
      ∀ i < count src, value cd tt c' ft i = 0 ∧
        (∃ p', (poseAt a θ skew.t dt (((newTime : ℝ) - src.header.stamp) / 10 ^ 6)).apply p' =
            (poseAt a θ skew.t dt (τ i)).apply (p i) ∧
          Stored cd .float64 tx (p' 0) (value cd tx c' fx i) ∧ Stored cd .float64 ty (p' 1) (value cd ty c' fy i) ∧
          Stored cd .float64 tz (p' 2) (value cd tz c' fz i)) ∧
        ∀ o < src.pointStep, ¬ (fx.offset ≤ o ∧ o < fx.offset + tx.size) → ¬ (fy.offset ≤ o ∧ o < fy.offset + ty.size) →
          ¬ (fz.offset ≤ o ∧ o < fz.offset + tz.size) → ¬ (ft.offset ≤ o ∧ o < ft.offset + tt.size) →
          c'.data[i * src.pointStep + o]? = src.data[i * src.pointStep + o]? := by
  obtain ⟨c', e, l, hq⟩ := deskew_ok (newTime := newTime) hl hw h hskew hdt
  refine ⟨c', e, l.wellFormed, l.descr, ?_⟩
  intro i hi
  obtain ⟨q1, q2, q3, q4, q5⟩ := hq i hi
  refine ⟨q4, ⟨_, ?_, q1, q2, q3⟩, q5⟩
  have := deskewPoint_spec (dt := dt) (newTime := newTime) (stamp := src.header.stamp) ha h0 h1 hθ hR (p i) (τ i)
  rw [newTimeSeconds_eq hstamp h64] at this
  exact this

/-- The specification determines the new point: seen from a pose, different points are different. -/
theorem poseAt_determines {a : Fin 3 → ℝ} (ha : ∑ i, a i ^ 2 = 1) {θ dt σ τ : ℝ} {d p q r : Fin 3 → ℝ}
    (hq : (poseAt a θ d dt σ).apply q = (poseAt a θ d dt τ).apply p) (hr : (poseAt a θ d dt σ).apply r = (poseAt a θ d dt τ).apply p) :
    q = r := rigid_inj (poseAt_rigid ha θ d dt σ) (hq.trans hr.symm)

/-- C61. Under the same conditions, a point measured at the new time keeps its coordinates (as far as the type of the field has
them). -/
theorem C61_point_at_new_time (hl : cd.Lawful rep) {src : Cloud} {fx fy fz ft : PField} {tx ty tz tt : FT} {p : Nat → Fin 3 → ℝ}
    {τ : Nat → ℝ} {skew : Iso ℝ} {dt : ℝ} {newTime : Nat} {a : Fin 3 → ℝ} {θ : ℝ} (hw : WellFormed src)
    (h : Timed cd rep src fx fy fz ft tx ty tz tt p τ) (hskew : ¬ ApproxIdentity skew) (hdt : 0 < dt)
    (ha : ∑ i, a i ^ 2 = 1) (hR : skew.R = rotationAbout a θ) (h0 : 0 ≤ θ) (h1 : θ < Real.pi)
    (hθ : θ = 0 ∨ Real.cos (θ / 2) < 1 - epsilon) (hstamp : src.header.stamp ≤ newTime) (h64 : newTime < 2 ^ 64)
    {i : Nat} (hi : i < count src) (hτ : τ i = ((newTime : ℝ) - src.header.stamp) / 10 ^ 6) :
    ∃ c', deskew cd skew dt newTime src = .ok c' ∧ value cd tx c' fx i = value cd tx src fx i ∧
      value cd ty c' fy i = value cd ty src fy i ∧ value cd tz c' fz i = value cd tz src fz i := by
  obtain ⟨c', e, -, -, hq⟩ := C61_deskew_partial hl hw h hskew hdt ha hR h0 h1 hθ hstamp h64
  obtain ⟨-, ⟨p', hp', s1, s2, s3⟩, -⟩ := hq i hi
  rw [hτ] at hp'
  obtain rfl := rigid_inj (poseAt_rigid ha θ skew.t dt _) hp'
  have fin : ∀ {f : PField} {t : FT} {v v' : ℝ}, HasType src f t → value cd t src f i = v → Stored cd .float64 t v v' →
      v' = value cd t src f i := by
    rintro f t v v' hf rfl ⟨w, hw', rfl⟩
    have hr := value_rep hl hw hf hi
    rw [castTo_of_rep hl _ hr] at hw'
    rw [← Outcome.ok.inj hw', hl.dec_enc _ _ hr]
  exact ⟨c', e, fin h.hx (h.px i hi).1 s1, fin h.hy (h.py i hi).1 s2, fin h.hz (h.pz i hi).1 s3⟩

/-- C61. A point measured at the end of the sweep, deskewed to its start, is transformed by the skew: the pose at time `dt` is the
skew, and the pose at time zero is the identity. -/
theorem C61_poses {skew : Iso ℝ} {a : Fin 3 → ℝ} {θ dt : ℝ} (hdt : 0 < dt) (hR : skew.R = rotationAbout a θ) :
    poseAt a θ skew.t dt dt = skew ∧ poseAt a θ skew.t dt 0 = 1 := by
  unfold poseAt
  rw [div_self hdt.ne', zero_div, one_mul, zero_mul, one_smul, zero_smul, ← hR]
  refine ⟨rfl, ?_⟩
  have : rotationAbout a 0 = 1 := by unfold rotationAbout; simp
  rw [this]
  rfl

/-- C61. Without relative motion no byte changes; the stamp is the new time. -/
theorem C61_no_motion {skew : Iso ℝ} (h : ApproxIdentity skew) (dt : ℝ) (newTime : Nat) (src : Cloud) :
    deskew cd skew dt newTime src = .ok { src with header := { src.header with stamp := newTime } } := by
  unfold deskew
  exact if_pos h

theorem approxIdentity_one : ApproxIdentity 1 := by
  have h1 : (1 : Iso ℝ).R = 1 := rfl
  have h2 : (1 : Iso ℝ).t = 0 := rfl
  unfold ApproxIdentity
  rw [h1, h2]
  simp only [sub_self]
  have : (0 : ℝ) ≤ (1 / 10 ^ 12) ^ 2 * min (∑ i : Fin 3, ∑ j : Fin 3, (1 : Matrix (Fin 3) (Fin 3) ℝ) i j ^ 2 +
      ∑ i : Fin 3, (0 : Fin 3 → ℝ) i ^ 2 + 1) 4 := by
    have : (0 : ℝ) ≤ ∑ i : Fin 3, ∑ j : Fin 3, (1 : Matrix (Fin 3) (Fin 3) ℝ) i j ^ 2 + ∑ i : Fin 3, (0 : Fin 3 → ℝ) i ^ 2 + 1 := by
      positivity
    positivity
  simpa using this

/-- C61. A duration that is not positive is refused, if there is relative motion. -/
theorem C61_throws {skew : Iso ℝ} (h : ¬ ApproxIdentity skew) {dt : ℝ} (hdt : dt ≤ 0) (newTime : Nat) (src : Cloud) :
    deskew cd skew dt newTime src = .throws := by
  unfold deskew
  dsimp only
  rw [if_neg h, if_pos hdt]

/-- C61 fails without relative motion: the times of the points are not reset although the stamp changes. Here a point measured
one second after the stamp 0 is, after deskewing to the stamp of one second, said to be measured at two seconds. -/
theorem C61_fails_times :
    ∃ (src c' : Cloud) (ft : PField), WellFormed src ∧ FirstNamed src "t" ft ∧ HasType src ft .float32 ∧ count src = 1 ∧
      src.header.stamp = 0 ∧ value Ieee.realCodec .float32 src ft 0 = 1 ∧
      deskew Ieee.realCodec 1 1 1000000 src = .ok c' ∧ c'.header.stamp = 1000000 ∧ value Ieee.realCodec .float32 c' ft 0 = 1 := by
  have v : Ieee.realCodec.dec .float32 [0, 0, 128, 63] = 1 := by
    show ((Ieee.dec .float32 [0, 0, 128, 63] : ℚ) : ℝ) = 1
    have : Ieee.dec .float32 [0, 0, 128, 63] = 1 := by decide +kernel
    rw [this]; norm_num
  refine ⟨⟨⟨0, 0, ""⟩, 1, 1, [⟨"x", 0, 7, 1⟩, ⟨"y", 4, 7, 1⟩, ⟨"z", 8, 7, 1⟩, ⟨"t", 12, 7, 1⟩], false, 16, 16,
      [0, 0, 128, 63, 0, 0, 128, 63, 0, 0, 128, 63, 0, 0, 128, 63], true⟩, _, ⟨"t", 12, 7, 1⟩,
    ⟨rfl, rfl, by decide, by decide⟩, ⟨[⟨"x", 0, 7, 1⟩, ⟨"y", 4, 7, 1⟩, ⟨"z", 8, 7, 1⟩], [], rfl, rfl, by simp⟩,
    ⟨rfl, by decide⟩, rfl, rfl, v, C61_no_motion approxIdentity_one _ _ _, rfl, v⟩

/-- C61 fails when the new time is before the stamp: the difference of the unsigned numbers wraps around, and the pose at a time
hundreds of thousands of years later is used. -/
theorem C61_fails_before_start {newTime stamp : Nat} (h : newTime < stamp) (h64 : stamp < 2 ^ 64) :
    newTimeSeconds newTime stamp = ((2 : ℝ) ^ 64 - (stamp - newTime)) / 10 ^ 6 ∧
      newTimeSeconds newTime stamp ≠ ((newTime : ℝ) - stamp) / 10 ^ 6 := by
  have e : (newTime + 2 ^ 64 - stamp) % 2 ^ 64 = 2 ^ 64 - (stamp - newTime) := by omega
  have e' : newTimeSeconds newTime stamp = ((2 : ℝ) ^ 64 - (stamp - newTime)) / 10 ^ 6 := by
    unfold newTimeSeconds
    rw [e, Nat.cast_sub (by omega), Nat.cast_sub h.le]
    push_cast
    ring
  refine ⟨e', ?_⟩
  rw [e']
  intro c
  rw [div_left_inj' (by norm_num)] at c
  have : (2 : ℝ) ^ 64 = 0 := by linarith
  norm_num at this

/-- A cloud with one point, (1, 1, 1), measured one second after its stamp (one microsecond). -/
def oneCloud : Cloud := ⟨⟨0, 1, ""⟩, 1, 1, [⟨"x", 0, 7, 1⟩, ⟨"y", 4, 7, 1⟩, ⟨"z", 8, 7, 1⟩, ⟨"t", 12, 7, 1⟩], false, 16, 16,
  [0, 0, 128, 63, 0, 0, 128, 63, 0, 0, 128, 63, 0, 0, 128, 63], true⟩

theorem oneCloud_wellFormed : WellFormed oneCloud := ⟨rfl, rfl, by decide, by decide⟩

theorem oneCloud_timed : Timed Ieee.realCodec Ieee.repReal oneCloud ⟨"x", 0, 7, 1⟩ ⟨"y", 4, 7, 1⟩ ⟨"z", 8, 7, 1⟩ ⟨"t", 12, 7, 1⟩ .float32
    .float32 .float32 .float32 (fun _ _ => 1) (fun _ => 1) := by
  have v : Ieee.realCodec.dec .float32 [0, 0, 128, 63] = 1 := by
    show ((Ieee.dec .float32 [0, 0, 128, 63] : ℚ) : ℝ) = 1
    have : Ieee.dec .float32 [0, 0, 128, 63] = 1 := by decide +kernel
    rw [this]; norm_num
  have r : Ieee.repReal .float64 1 := ⟨[0, 0, 0, 0, 0, 0, 240, 63], rfl, by
    show ((Ieee.dec .float64 [0, 0, 0, 0, 0, 0, 240, 63] : ℚ) : ℝ) = 1
    have : Ieee.dec .float64 [0, 0, 0, 0, 0, 0, 240, 63] = 1 := by decide +kernel
    rw [this]; norm_num⟩
  have r0 : Ieee.repReal .float32 0 := ⟨[0, 0, 0, 0], rfl, by
    show ((Ieee.dec .float32 [0, 0, 0, 0] : ℚ) : ℝ) = 0
    have : Ieee.dec .float32 [0, 0, 0, 0] = 0 := by decide +kernel
    rw [this]; norm_num⟩
  have conv : ∀ v, ∃ w, castTo Ieee.realCodec .float64 .float32 v = .ok w := fun v => ⟨_, if_neg (by decide)⟩
  exact
    { nx := ⟨[], [⟨"y", 4, 7, 1⟩, ⟨"z", 8, 7, 1⟩, ⟨"t", 12, 7, 1⟩], rfl, rfl, by simp⟩
      ny := ⟨[⟨"x", 0, 7, 1⟩], [⟨"z", 8, 7, 1⟩, ⟨"t", 12, 7, 1⟩], rfl, rfl, by simp⟩
      nz := ⟨[⟨"x", 0, 7, 1⟩, ⟨"y", 4, 7, 1⟩], [⟨"t", 12, 7, 1⟩], rfl, rfl, by simp⟩
      nt := ⟨[⟨"x", 0, 7, 1⟩, ⟨"y", 4, 7, 1⟩, ⟨"z", 8, 7, 1⟩], [], rfl, rfl, by simp⟩
      hx := ⟨rfl, by decide⟩, hy := ⟨rfl, by decide⟩, hz := ⟨rfl, by decide⟩, ht := ⟨rfl, by decide⟩
      xy := .inl (by decide), xz := .inl (by decide), xt := .inl (by decide), yz := .inl (by decide), yt := .inl (by decide)
      zt := .inl (by decide)
      px := fun i hi => by
        have : i < 1 := hi
        obtain rfl : i = 0 := by omega
        exact ⟨v, r⟩
      py := fun i hi => by
        have : i < 1 := hi
        obtain rfl : i = 0 := by omega
        exact ⟨v, r⟩
      pz := fun i hi => by
        have : i < 1 := hi
        obtain rfl : i = 0 := by omega
        exact ⟨v, r⟩
      pt := fun i hi => by
        have : i < 1 := hi
        obtain rfl : i = 0 := by omega
        exact ⟨v, r⟩
      cx := conv, cy := conv, cz := conv, zero := r0 }

theorem moved_not_identity : ¬ ApproxIdentity ⟨1, ![1, 2, 3]⟩ := by
  unfold ApproxIdentity
  intro h
  have h4 := h.trans (mul_le_mul_of_nonneg_left (min_le_right _ _) (by positivity))
  simp [Fin.sum_univ_three] at h4
  norm_num at h4

/-- The hypotheses of `C61_deskew_partial` are met: a translation by (1, 2, 3) during half a second. -/
example : ∃ c', deskew Ieee.realCodec ⟨1, ![1, 2, 3]⟩ (1 / 2) 2 oneCloud = .ok c' ∧ c'.header.stamp = 2 := by
  obtain ⟨c', e, -, hm, -⟩ := C61_deskew_partial (skew := ⟨1, ![1, 2, 3]⟩) (dt := 1 / 2) (newTime := 2) (a := ![1, 0, 0]) (θ := 0)
    Ieee.realLawful oneCloud_wellFormed oneCloud_timed moved_not_identity (by norm_num) (by simp [Fin.sum_univ_three])
    (by unfold rotationAbout; simp) le_rfl Real.pi_pos (.inl rfl) (by decide) (by decide)
  refine ⟨c', e, ?_⟩
  have := congrArg (fun c : Cloud => c.header.stamp) hm
  exact this

end Pcl

end Serpent
