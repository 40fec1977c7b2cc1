import Verif.Model.ComputeDistances
import Verif.Props.PclUnitVectors

/-!
# C110: distances between clouds
-/

namespace Serpent

namespace Pcl

open EigenRos (forLoop)
open EigenExt (Iso)

variable {cd : Codec ℝ} {rep : FT → ℝ → Prop}

/-- Euclidean distance. -/
noncomputable def distance (p q : Vec3) : ℝ := Real.sqrt (∑ i, (p i - q i) ^ 2)

theorem squaredDistance_eq (p q : Vec3) : squaredDistance p q = ∑ i, (p i - q i) ^ 2 := by
  rw [Fin.sum_univ_three]; rfl

/-- The contract of the search: the least distance to a point of the target. -/
theorem nearest_spec (target : List (Option Vec3)) (p : Vec3) :
    ((∀ q, some q ∉ target) → nearest target p = none) ∧
    ((∃ q, some q ∈ target) → ∃ d, nearest target p = some d ∧ IsLeast {r | ∃ q, some q ∈ target ∧ r = distance p q} (Real.sqrt d)) := by
  have hmem : ∀ q, q ∈ target.filterMap id ↔ some q ∈ target := by
    intro q
    rw [List.mem_filterMap]
    exact ⟨fun ⟨a, h, e⟩ => by rw [← e]; exact h, fun h => ⟨_, h, rfl⟩⟩
  refine ⟨fun h => ?_, fun ⟨q, hq⟩ => ?_⟩
  · have : target.filterMap id = [] := List.eq_nil_iff_forall_not_mem.2 fun q hq => h q ((hmem q).1 hq)
    unfold nearest
    rw [this]
    rfl
  · unfold nearest
    cases hm : ((target.filterMap id).map (squaredDistance p)).min? with
    | none =>
      rw [List.min?_eq_none_iff, List.map_eq_nil_iff] at hm
      have := (hmem q).2 hq
      rw [hm] at this
      cases this
    | some d =>
      rw [List.min?_eq_some_iff] at hm
      obtain ⟨h1, h2⟩ := hm
      refine ⟨d, rfl, ?_, ?_⟩
      · obtain ⟨q', hq', rfl⟩ := List.mem_map.1 h1
        exact ⟨q', (hmem q').1 hq', by rw [distance, squaredDistance_eq]⟩
      · rintro r ⟨q', hq', rfl⟩
        rw [distance, ← squaredDistance_eq]
        exact Real.sqrt_le_sqrt (h2 _ (List.mem_map_of_mem ((hmem q').2 hq')))

/-- The fields of the output. -/
def outputFields : List PField := [⟨"x", 0, 7, 1⟩, ⟨"y", 4, 7, 1⟩, ⟨"z", 8, 7, 1⟩, ⟨"distance", 12, 7, 1⟩]

/-- The cloud before the loop. -/
def preparedOutput (h : Header) (n : Nat) : Cloud :=
  ⟨h, 1, n, outputFields, false, 16, n * 16, List.replicate (n * 16) 0, false⟩

theorem prepared_wellFormed (h : Header) {n : Nat} (hn : n * 16 < 2 ^ 32) : WellFormed (preparedOutput h n) :=
  ⟨rfl, by simp [preparedOutput], by simpa [preparedOutput] using hn, by show 1 * n < _; omega⟩

theorem computeDistances_eq (source : XyzCloud Vec3) (target : XyzCloud (Option Vec3)) (hn : source.points.length * 16 < 2 ^ 32) :
    computeDistances cd source target = forLoop (count (preparedOutput source.header source.points.length))
      (distanceStep (writeAs cd .float32 .float32 0) (writeAs cd .float32 .float32 4) (writeAs cd .float32 .float32 8)
        (writeAs cd .float32 .float32 12) source.points target.points) (preparedOutput source.header source.points.length) := by
  have e : addFields Cloud.empty ["x", "y", "z", "distance"] .float32 1 =
      .ok ⟨⟨0, 0, ""⟩, 0, 0, outputFields, false, 16, 0, [], false⟩ := by decide +kernel
  have h1 : u32 source.points.length = source.points.length := u32_of_lt (by omega)
  have h2 : u32 (16 * source.points.length) = source.points.length * 16 := by rw [Nat.mul_comm]; exact u32_of_lt hn
  have h3 : u32 (source.points.length * 16 * 1) = source.points.length * 16 := by rw [Nat.mul_one]; exact u32_of_lt hn
  have hc : count (preparedOutput source.header source.points.length) = source.points.length := Nat.one_mul _
  unfold computeDistances
  rw [e, Outcome.bind_ok]
  dsimp only
  rw [h1, h2, h3, hc]
  have : (EigenRos.resize ([] : List UInt8) (source.points.length * 16) 0) = List.replicate (source.points.length * 16) 0 := by
    simp [EigenRos.resize]
  rw [this]
  rfl

theorem distanceStep_ok (hl : cd.Lawful rep) {h : Header} {source : List Vec3} {target : List (Option Vec3)}
    {i : Nat} {p : Vec3} (hp : source[i]? = some p)
    (hrep : ∀ k, rep .float32 (p k)) {r : ℝ} (hr : nearest target p = some r) {d : Cloud} (hd : Like (preparedOutput h source.length) d) :
    ∃ d', distanceStep (writeAs cd .float32 .float32 0) (writeAs cd .float32 .float32 4) (writeAs cd .float32 .float32 8)
        (writeAs cd .float32 .float32 12) source target i d = .ok d' ∧ Like (preparedOutput h source.length) d' ∧
      (valueIn cd .float32 0 (point d' i) = p 0 ∧ valueIn cd .float32 4 (point d' i) = p 1 ∧
        valueIn cd .float32 8 (point d' i) = p 2 ∧ valueIn cd .float32 12 (point d' i) = rounded cd .float32 (Real.sqrt r)) ∧
      ∀ j, j ≠ i → point d' j = point d j := by
  have same : ∀ v, castTo cd .float32 .float32 v = .ok v := fun v => if_pos rfl
  have h4 : ∀ v, (cd.enc .float32 v).length = 4 := fun v => hl.enc_length _ _
  have hi : i < count (preparedOutput h source.length) := by
    have := (List.getElem?_eq_some_iff.1 hp).1
    show i < 1 * source.length
    omega
  have t0 : HasType (preparedOutput h source.length) ⟨"x", 0, 7, 1⟩ .float32 := ⟨rfl, by show 0 + 4 ≤ 16; omega⟩
  have t1 : HasType (preparedOutput h source.length) ⟨"y", 4, 7, 1⟩ .float32 := ⟨rfl, by show 4 + 4 ≤ 16; omega⟩
  have t2 : HasType (preparedOutput h source.length) ⟨"z", 8, 7, 1⟩ .float32 := ⟨rfl, by show 8 + 4 ≤ 16; omega⟩
  have t3 : HasType (preparedOutput h source.length) ⟨"distance", 12, 7, 1⟩ .float32 := ⟨rfl, by show 12 + 4 ≤ 16; omega⟩
  obtain ⟨d1, e1, l1, p1, r1⟩ := writeAs_point hl hd t0 hi (same (p 0))
  obtain ⟨d2, e2, l2, p2, r2⟩ := writeAs_point hl l1 t1 hi (same (p 1))
  obtain ⟨d3, e3, l3, p3, r3⟩ := writeAs_point hl l2 t2 hi (same (p 2))
  obtain ⟨d4, e4, l4, p4, r4⟩ := writeAs_point hl l3 t3 hi (same (Real.sqrt r))
  have len : ∀ {c}, Like (preparedOutput h source.length) c → (point c i).length = 16 := by
    intro c hc
    rw [point_length' hc.wellFormed (hc.count.symm ▸ hi), hc.pointStep]
    rfl
  have dec : ∀ k, cd.dec .float32 (cd.enc .float32 (p k)) = p k := fun k => hl.dec_enc _ _ (hrep k)
  refine ⟨d4, ?_, l4, ⟨?_, ?_, ?_, ?_⟩, ?_⟩
  · unfold distanceStep EigenRos.getAt
    rw [hp]
    dsimp only
    rw [Outcome.bind_ok, e1, Outcome.bind_ok, e2, Outcome.bind_ok, e3, Outcome.bind_ok, hr]
    exact e4
  · rw [p4, valueIn_patch_other (by rw [h4, len l3]) (.inl (by show 0 + 4 ≤ 12; omega)), p3,
      valueIn_patch_other (by rw [h4, len l2]; show 8 + 4 ≤ 16; omega) (.inl (by show 0 + 4 ≤ 8; omega)), p2,
      valueIn_patch_other (by rw [h4, len l1]; show 4 + 4 ≤ 16; omega) (.inl (by show 0 + 4 ≤ 4; omega)), p1,
      valueIn_patch_same hl _ (by rw [len hd]; show 0 + 4 ≤ 16; omega), dec]
  · rw [p4, valueIn_patch_other (by rw [h4, len l3]) (.inl (by show 4 + 4 ≤ 12; omega)), p3,
      valueIn_patch_other (by rw [h4, len l2]; show 8 + 4 ≤ 16; omega) (.inl (by show 4 + 4 ≤ 8; omega)), p2,
      valueIn_patch_same hl _ (by rw [len l1]; show 4 + 4 ≤ 16; omega), dec]
  · rw [p4, valueIn_patch_other (by rw [h4, len l3]) (.inl (by show 8 + 4 ≤ 12; omega)), p3,
      valueIn_patch_same hl _ (by rw [len l2]; show 8 + 4 ≤ 16; omega), dec]
  · rw [p4, valueIn_patch_same hl _ (by rw [len l3]; show 12 + 4 ≤ 16; omega)]
    rfl
  · intro j hj
    rw [r4 j hj, r3 j hj, r2 j hj, r1 j hj]

/-- C110. For every source and target cloud for which the transform between their frames at the time of the source is known, and a
target with a finite point, the cloud published has the header of the source and one point for each point of the source, in order,
with the fields x, y, z and distance: the coordinates of the source point, and the least distance from it to a point of the target
(in the frame of the source), rounded to `float`. -/
theorem C110_distances (hl : cd.Lawful rep) (lookup : String → String → Nat → Option (Iso ℝ)) (source : XyzCloud Vec3)
    (target : XyzCloud (Option Vec3)) (T : Iso ℝ) (hT : lookup source.header.frame target.header.frame source.header.stamp = some T)
    (hn : source.points.length * 16 < 2 ^ 32) (hrep : ∀ p ∈ source.points, ∀ k, rep .float32 (p k)) (hq : ∃ q, some q ∈ target.points) :
    ∃ out, distanceCallback cd lookup source target = .ok out ∧ WellFormed out ∧ out.header = source.header ∧
      count out = source.points.length ∧ ∃ fx fy fz fd, out.fields = [fx, fy, fz, fd] ∧
      fx.name = "x" ∧ fy.name = "y" ∧ fz.name = "z" ∧ fd.name = "distance" ∧
      HasType out fx .float32 ∧ HasType out fy .float32 ∧ HasType out fz .float32 ∧ HasType out fd .float32 ∧
      ∀ (i : Nat) (p : Vec3), source.points[i]? = some p →
        value cd .float32 out fx i = p 0 ∧ value cd .float32 out fy i = p 1 ∧ value cd .float32 out fz i = p 2 ∧
        ∃ r, IsLeast {r | ∃ q, some q ∈ target.points ∧ r = distance p (T.apply q)} r ∧
          value cd .float32 out fd i = rounded cd .float32 r := by
  obtain ⟨q, hq⟩ := hq
  have hmem : ∀ q', some q' ∈ (transformTarget target T source.header.frame).points ↔ ∃ q, some q ∈ target.points ∧ q' = T.apply q := by
    intro q'
    show some q' ∈ target.points.map _ ↔ _
    rw [List.mem_map]
    constructor
    · rintro ⟨a, ha, e⟩
      cases a with
      | none => cases e
      | some a => exact ⟨a, ha, (Option.some.inj e).symm⟩
    · rintro ⟨a, ha, rfl⟩
      exact ⟨some a, ha, rfl⟩
  have near : ∀ p : Vec3, ∃ d, nearest (transformTarget target T source.header.frame).points p = some d ∧
      IsLeast {r | ∃ q, some q ∈ target.points ∧ r = distance p (T.apply q)} (Real.sqrt d) := by
    intro p
    obtain ⟨d, e, h⟩ := (nearest_spec (transformTarget target T source.header.frame).points p).2 ⟨_, (hmem _).2 ⟨q, hq, rfl⟩⟩
    refine ⟨d, e, ?_⟩
    have hs : {r | ∃ q, some q ∈ (transformTarget target T source.header.frame).points ∧ r = distance p q} =
        {r | ∃ q, some q ∈ target.points ∧ r = distance p (T.apply q)} := by
      ext r
      constructor
      · rintro ⟨q', hq', rfl⟩
        obtain ⟨a, ha, rfl⟩ := (hmem q').1 hq'
        exact ⟨a, ha, rfl⟩
      · rintro ⟨a, ha, rfl⟩
        exact ⟨_, (hmem _).2 ⟨a, ha, rfl⟩, rfl⟩
    rw [← hs]
    exact h
  have w0 := prepared_wellFormed source.header hn
  have hc : count (preparedOutput source.header source.points.length) = source.points.length := Nat.one_mul _
  obtain ⟨out, e, l, hQ⟩ := pointLoop w0 (body := distanceStep (writeAs cd .float32 .float32 0) (writeAs cd .float32 .float32 4)
      (writeAs cd .float32 .float32 8) (writeAs cd .float32 .float32 12) source.points
      (transformTarget target T source.header.frame).points)
    (Q := fun i b => ∀ p, source.points[i]? = some p → valueIn cd .float32 0 b = p 0 ∧ valueIn cd .float32 4 b = p 1 ∧
      valueIn cd .float32 8 b = p 2 ∧ ∃ r, IsLeast {r | ∃ q, some q ∈ target.points ∧ r = distance p (T.apply q)} r ∧
        valueIn cd .float32 12 b = rounded cd .float32 r) (by
      intro i hi d hd _
      rw [hc] at hi
      have hp : source.points[i]? = some source.points[i] := List.getElem?_eq_getElem hi
      obtain ⟨r, hr, hleast⟩ := near source.points[i]
      obtain ⟨d', e, l, ⟨v1, v2, v3, v4⟩, o⟩ := distanceStep_ok hl hp (hrep _ (List.getElem_mem hi)) hr hd
      refine ⟨d', e, l, ?_, o⟩
      intro p hp'
      obtain rfl : source.points[i] = p := Option.some.inj (hp.symm.trans hp')
      exact ⟨v1, v2, v3, _, hleast, v4⟩)
  have hstep : out.pointStep = 16 := l.pointStep
  have t0 : HasType out ⟨"x", 0, 7, 1⟩ .float32 := ⟨rfl, by rw [hstep]; show 0 + 4 ≤ 16; omega⟩
  have t1 : HasType out ⟨"y", 4, 7, 1⟩ .float32 := ⟨rfl, by rw [hstep]; show 4 + 4 ≤ 16; omega⟩
  have t2 : HasType out ⟨"z", 8, 7, 1⟩ .float32 := ⟨rfl, by rw [hstep]; show 8 + 4 ≤ 16; omega⟩
  have t3 : HasType out ⟨"distance", 12, 7, 1⟩ .float32 := ⟨rfl, by rw [hstep]; show 12 + 4 ≤ 16; omega⟩
  refine ⟨out, ?_, l.wellFormed, ?_, by rw [l.count, hc], _, _, _, _, l.fields, rfl, rfl, rfl, rfl, t0, t1, t2, t3, ?_⟩
  · unfold distanceCallback
    rw [hT]
    dsimp only
    rw [computeDistances_eq _ _ hn, e]
  · have := congrArg Cloud.header l.descr; exact this
  · intro i p hp
    have hi : i < source.points.length := (List.getElem?_eq_some_iff.1 hp).1
    obtain ⟨v1, v2, v3, r, hr, v4⟩ := hQ i (by rw [hc]; exact hi) p hp
    rw [value_eq_point t0, value_eq_point t1, value_eq_point t2, value_eq_point t3]
    exact ⟨v1, v2, v3, r, hr, v4⟩

/-- C110. When the transform is not known, or the target has no finite point and the source is not empty, nothing is published and an
exception is thrown. -/
theorem C110_refused (hl : cd.Lawful rep) (lookup : String → String → Nat → Option (Iso ℝ)) (source : XyzCloud Vec3)
    (target : XyzCloud (Option Vec3)) (hn : source.points.length * 16 < 2 ^ 32) :
    (lookup source.header.frame target.header.frame source.header.stamp = none → distanceCallback cd lookup source target = .throws) ∧
    ((∀ q, some q ∉ target.points) → source.points ≠ [] → distanceCallback cd lookup source target = .throws) := by
  refine ⟨fun h => by unfold distanceCallback; rw [h], fun h hne => ?_⟩
  unfold distanceCallback
  cases hT : lookup source.header.frame target.header.frame source.header.stamp with
  | none => rfl
  | some T =>
    dsimp only
    rw [computeDistances_eq _ _ hn]
    have none' : ∀ p, nearest (transformTarget target T source.header.frame).points p = none := by
      intro p
      refine (nearest_spec _ p).1 fun q hq => ?_
      obtain ⟨a, ha, e⟩ := List.mem_map.1 (show some q ∈ target.points.map _ from hq)
      cases a with
      | none => cases e
      | some a => exact h a ha
    have hc : count (preparedOutput source.header source.points.length) = source.points.length := Nat.one_mul _
    have hpos : 0 < source.points.length := List.length_pos_iff.2 hne
    refine pointLoop_throws (bad := fun _ => True) (prepared_wellFormed _ hn) (fun _ _ hb => absurd trivial hb) ?_
      ⟨0, by rw [hc]; exact hpos, trivial⟩
    intro i hi _ d hd _
    have hi' := hi
    rw [hc] at hi'
    have same : ∀ v, castTo cd .float32 .float32 v = .ok v := fun v => if_pos rfl
    have t0 : HasType (preparedOutput source.header source.points.length) ⟨"x", 0, 7, 1⟩ .float32 := ⟨rfl, by show 0 + 4 ≤ 16; omega⟩
    have t1 : HasType (preparedOutput source.header source.points.length) ⟨"y", 4, 7, 1⟩ .float32 := ⟨rfl, by show 4 + 4 ≤ 16; omega⟩
    have t2 : HasType (preparedOutput source.header source.points.length) ⟨"z", 8, 7, 1⟩ .float32 := ⟨rfl, by show 8 + 4 ≤ 16; omega⟩
    obtain ⟨d1, e1, l1, -⟩ := writeAs_point hl hd t0 hi (same (source.points[i] 0))
    obtain ⟨d2, e2, l2, -⟩ := writeAs_point hl l1 t1 hi (same (source.points[i] 1))
    obtain ⟨d3, e3, l3, -⟩ := writeAs_point hl l2 t2 hi (same (source.points[i] 2))
    unfold distanceStep EigenRos.getAt
    rw [List.getElem?_eq_getElem hi']
    dsimp only
    rw [Outcome.bind_ok, e1, Outcome.bind_ok, e2, Outcome.bind_ok, e3, Outcome.bind_ok, none']

/-- C110. The node runs exactly for the method and the types that are supported (or not set). -/
theorem C110_configuration (method source target : Option String) :
    distanceNode method source target = .ok () ↔ (method = none ∨ method = some "POINT_TO_POINT") ∧
      (source = none ∨ source = some "PointXYZ") ∧ (target = none ∨ target = some "PointXYZ") := by
  unfold distanceNode
  cases method <;> cases source <;> cases target <;> simp <;> split <;> simp_all

/-- Two points, and a target with a point that is not finite, moved by one along x: the distances are 1. -/
example : ∃ out fd, distanceCallback Ieee.realCodec (fun _ _ _ => some ⟨1, ![1, 0, 0]⟩)
    ⟨⟨0, 5, "a"⟩, [![0, 0, 0], ![0, 0, 0]]⟩ ⟨⟨0, 5, "b"⟩, [none, some ![0, 0, 0], some ![5, 0, 0]]⟩ = .ok out ∧ count out = 2 ∧
    fd ∈ out.fields ∧ value Ieee.realCodec .float32 out fd 1 = rounded Ieee.realCodec .float32 1 := by
  have hz : Ieee.repReal .float32 0 := ⟨[0, 0, 0, 0], rfl, by
    unfold Ieee.decReal
    have : Ieee.dec .float32 [0, 0, 0, 0] = 0 := by decide +kernel
    rw [this]; norm_num⟩
  obtain ⟨out, e, -, -, hc, fx, fy, fz, fd, hf, -, -, -, -, -, -, -, -, h⟩ := C110_distances (cd := Ieee.realCodec) Ieee.realLawful
    (fun _ _ _ => some ⟨1, ![1, 0, 0]⟩) ⟨⟨0, 5, "a"⟩, [![0, 0, 0], ![0, 0, 0]]⟩
    ⟨⟨0, 5, "b"⟩, [none, some ![0, 0, 0], some ![5, 0, 0]]⟩ ⟨1, ![1, 0, 0]⟩ rfl (by decide) (by
      intro p hp k
      simp only [List.mem_cons, List.not_mem_nil, or_false, or_self] at hp
      subst hp
      fin_cases k <;> exact hz) ⟨![0, 0, 0], by simp⟩
  obtain ⟨-, -, -, r, ⟨⟨q, hq, rfl⟩, hle⟩, hv⟩ := h 1 ![0, 0, 0] rfl
  refine ⟨out, fd, e, hc, by rw [hf]; simp, ?_⟩
  rw [hv]
  have d0 : distance ![0, 0, 0] (Iso.apply ⟨1, ![1, 0, 0]⟩ ![0, 0, 0]) = 1 := by
    simp [distance, Iso.apply, Fin.sum_univ_three]
  have d5 : distance ![0, 0, 0] (Iso.apply ⟨1, ![1, 0, 0]⟩ ![5, 0, 0]) = 6 := by
    simp [distance, Iso.apply, Fin.sum_univ_three]
    rw [show (-(1 : ℝ) + -5) ^ 2 = 6 ^ 2 by norm_num]
    exact Real.sqrt_sq (by norm_num)
  congr 1
  simp only [List.mem_cons, Option.some.injEq, List.not_mem_nil, or_false, reduceCtorEq, false_or] at hq
  rcases hq with rfl | rfl
  · exact d0
  · have := hle ⟨![0, 0, 0], by simp, rfl⟩
    rw [d0, d5] at this
    norm_num at this

end Pcl

end Serpent
