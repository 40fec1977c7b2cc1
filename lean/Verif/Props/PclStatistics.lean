import Verif.Props.PclFields
import Mathlib.Algebra.Order.Field.Basic
import Mathlib.Algebra.BigOperators.Intervals
import Mathlib.Tactic.Ring

/-!
# Statistics of the fields of pointclouds (C60)
-/

namespace Serpent

namespace Pcl

open EigenRos (forLoop forLoop_inv forLoop_succ)

section

variable {K : Type} {cd : Codec K} {rep : FT → K → Prop}

/-- Reading a field whose values type `T` has. -/
theorem read_value (hl : cd.Lawful rep) {c : Cloud} {f : PField} {t T : FT} (hw : WellFormed c) (ht : HasType c f t)
    (hT : ∀ i < count c, rep T (value cd t c f i)) {i : Nat} (hi : i < count c) :
    readAs cd T t f.offset c i = .ok (value cd t c f i) := by
  rw [readAs_eq T hw ht hi, castTo_of_rep hl _ (hT i hi)]

theorem isEmpty_eq {c : Cloud} (hw : WellFormed c) : isEmpty c = true ↔ count c = 0 := by
  unfold isEmpty
  rw [hw.sizePoints]
  simp

variable [LinearOrder K]

/-- C60. The maximum of a field of a cloud that has points is the value of some point, and no point has a larger one. `T` is
any type that has the values of the field. -/
theorem C60_max (hl : cd.Lawful rep) {c : Cloud} {f : PField} {t T : FT} (hw : WellFormed c) (ht : HasType c f t)
    (hT : ∀ i < count c, rep T (value cd t c f i)) (hlow : ∀ v, rep T v → cd.lowest T ≤ v) (hc : 0 < count c) :
    ∃ m, maxField cd T c f = .ok m ∧ (∃ i < count c, value cd t c f i = m) ∧ ∀ i < count c, value cd t c f i ≤ m := by
  unfold maxField
  rw [if_neg (by rw [isEmpty_eq hw]; omega), getter_ok T ht.1, Outcome.bind_ok, hw.sizePoints]
  obtain ⟨m, h, h1, h2⟩ := forLoop_inv
    (fun k m => ((k = 0 ∧ m = cd.lowest T) ∨ ∃ i < k, value cd t c f i = m) ∧ ∀ i < k, value cd t c f i ≤ m)
    (n := count c) (body := fun i m => readAs cd T t f.offset c i >>= fun v => .ok (if m < v then v else m))
    (s := cd.lowest T) ⟨.inl ⟨rfl, rfl⟩, fun i hi => by omega⟩ (by
      rintro k m hk ⟨h1, h2⟩
      rw [read_value hl hw ht hT hk, Outcome.bind_ok]
      refine ⟨_, rfl, ?_, ?_⟩
      · right
        by_cases hlt : m < value cd t c f k
        · rw [if_pos hlt]; exact ⟨k, by omega, rfl⟩
        · rw [if_neg hlt]
          rcases h1 with ⟨-, h1⟩ | ⟨i, hi, h1⟩
          · exact ⟨k, by omega, le_antisymm (not_lt.1 hlt) (h1 ▸ hlow _ (hT k hk))⟩
          · exact ⟨i, by omega, h1⟩
      · intro i hi
        by_cases hlt : m < value cd t c f k
        · rw [if_pos hlt]
          rcases Nat.lt_succ_iff_lt_or_eq.1 hi with h | rfl
          · exact (h2 i h).trans hlt.le
          · exact le_rfl
        · rw [if_neg hlt]
          rcases Nat.lt_succ_iff_lt_or_eq.1 hi with h | rfl
          · exact h2 i h
          · exact not_lt.1 hlt)
  refine ⟨m, h, ?_, h2⟩
  rcases h1 with ⟨h0, -⟩ | h1
  · omega
  · exact h1

/-- C60. The minimum of a field of a cloud that has points is the value of some point, and no point has a smaller one. -/
theorem C60_min (hl : cd.Lawful rep) {c : Cloud} {f : PField} {t T : FT} (hw : WellFormed c) (ht : HasType c f t)
    (hT : ∀ i < count c, rep T (value cd t c f i)) (hhigh : ∀ v, rep T v → v ≤ cd.highest T) (hc : 0 < count c) :
    ∃ m, minField cd T c f = .ok m ∧ (∃ i < count c, value cd t c f i = m) ∧ ∀ i < count c, m ≤ value cd t c f i := by
  unfold minField
  rw [if_neg (by rw [isEmpty_eq hw]; omega), getter_ok T ht.1, Outcome.bind_ok, hw.sizePoints]
  obtain ⟨m, h, h1, h2⟩ := forLoop_inv
    (fun k m => ((k = 0 ∧ m = cd.highest T) ∨ ∃ i < k, value cd t c f i = m) ∧ ∀ i < k, m ≤ value cd t c f i)
    (n := count c) (body := fun i m => readAs cd T t f.offset c i >>= fun v => .ok (if v < m then v else m))
    (s := cd.highest T) ⟨.inl ⟨rfl, rfl⟩, fun i hi => by omega⟩ (by
      rintro k m hk ⟨h1, h2⟩
      rw [read_value hl hw ht hT hk, Outcome.bind_ok]
      refine ⟨_, rfl, ?_, ?_⟩
      · right
        by_cases hlt : value cd t c f k < m
        · rw [if_pos hlt]; exact ⟨k, by omega, rfl⟩
        · rw [if_neg hlt]
          rcases h1 with ⟨-, h1⟩ | ⟨i, hi, h1⟩
          · exact ⟨k, by omega, le_antisymm (h1 ▸ hhigh _ (hT k hk)) (not_lt.1 hlt)⟩
          · exact ⟨i, by omega, h1⟩
      · intro i hi
        by_cases hlt : value cd t c f k < m
        · rw [if_pos hlt]
          rcases Nat.lt_succ_iff_lt_or_eq.1 hi with h | rfl
          · exact hlt.le.trans (h2 i h)
          · exact le_rfl
        · rw [if_neg hlt]
          rcases Nat.lt_succ_iff_lt_or_eq.1 hi with h | rfl
          · exact h2 i h
          · exact not_lt.1 hlt)
  refine ⟨m, h, ?_, h2⟩
  rcases h1 with ⟨h0, -⟩ | h1
  · omega
  · exact h1

omit [LinearOrder K] in
/-- C60. The extreme values of a cloud without points are refused. -/
theorem C60_empty [LT K] [DecidableLT K] {c : Cloud} {f : PField} {T : FT} (hw : WellFormed c) (hc : count c = 0) :
    maxField cd T c f = .throws ∧ minField cd T c f = .throws := by
  unfold maxField minField
  rw [if_pos ((isEmpty_eq hw).2 hc), if_pos ((isEmpty_eq hw).2 hc)]
  exact ⟨rfl, rfl⟩

omit [LinearOrder K] in
/-- C60. A field whose datatype is none of the eight is refused. -/
theorem C60_unknown_datatype [LT K] [DecidableLT K] [Field K] {c : Cloud} {f : PField} (h : ∀ t : FT, f.datatype ≠ t.code) (T : FT)
    (mean : K) :
    maxField cd T c f = .throws ∧ minField cd T c f = .throws ∧ sumField cd T c f = .throws ∧ meanField cd T c f = .throws ∧
      varianceField cd T c f mean = .throws := by
  have : FT.ofCode f.datatype = none := by
    cases e : FT.ofCode f.datatype with
    | none => rfl
    | some t => exact absurd (ofCode_some e) (h t)
  unfold meanField maxField minField sumField varianceField getter
  rw [this]
  refine ⟨?_, ?_, rfl, rfl, rfl⟩ <;> split <;> rfl

end

section

variable {K : Type} [Field K] {cd : Codec K} {rep : FT → K → Prop}

/-- C60. The sum of a field, in a type whose additions do not overflow or round, is the sum of the values. -/
theorem C60_sum (hl : cd.Lawful rep) {c : Cloud} {f : PField} {t T : FT} (hw : WellFormed c) (ht : HasType c f t)
    (hT : ∀ i < count c, rep T (value cd t c f i)) (hadd : ∀ a b, cd.add T a b = .ok (a + b)) :
    sumField cd T c f = .ok (∑ i ∈ Finset.range (count c), value cd t c f i) := by
  unfold sumField
  rw [getter_ok T ht.1, Outcome.bind_ok, hw.sizePoints]
  obtain ⟨m, h, h1⟩ := forLoop_inv (fun k m => m = ∑ i ∈ Finset.range k, value cd t c f i)
    (n := count c) (body := fun i s => readAs cd T t f.offset c i >>= fun v => cd.add T s v) (s := 0) (by simp) (by
      rintro k m hk rfl
      rw [read_value hl hw ht hT hk, Outcome.bind_ok, hadd]
      exact ⟨_, rfl, (Finset.sum_range_succ _ _).symm⟩)
  rw [h, h1]

/-- C60. The sum of a field in any type, also an integer one, is the sum of the values if the type has the sums of the first
points, for every number of points (`hadd`: additions whose result the type has are exact). -/
theorem C60_sum_representable (hl : cd.Lawful rep) {c : Cloud} {f : PField} {t T : FT} (hw : WellFormed c) (ht : HasType c f t)
    (hT : ∀ i < count c, rep T (value cd t c f i)) (hadd : ∀ a b, rep T (a + b) → cd.add T a b = .ok (a + b))
    (hs : ∀ k < count c, rep T (∑ i ∈ Finset.range (k + 1), value cd t c f i)) :
    sumField cd T c f = .ok (∑ i ∈ Finset.range (count c), value cd t c f i) := by
  unfold sumField
  rw [getter_ok T ht.1, Outcome.bind_ok, hw.sizePoints]
  obtain ⟨m, h, h1⟩ := forLoop_inv (fun k m => m = ∑ i ∈ Finset.range k, value cd t c f i)
    (n := count c) (body := fun i s => readAs cd T t f.offset c i >>= fun v => cd.add T s v) (s := 0) (by simp) (by
      rintro k m hk rfl
      have := hs k hk
      rw [Finset.sum_range_succ] at this
      rw [read_value hl hw ht hT hk, Outcome.bind_ok, hadd _ _ this]
      exact ⟨_, rfl, (Finset.sum_range_succ _ _).symm⟩)
  rw [h, h1]

/-- C60. The mean of a field as `double` (additions of `double` are taken as exact) is the arithmetic mean. -/
theorem C60_mean [CharZero K] (hl : cd.Lawful rep) {c : Cloud} {f : PField} {t : FT} (hw : WellFormed c) (ht : HasType c f t)
    (hT : ∀ i < count c, rep .float64 (value cd t c f i)) (hadd : ∀ a b, cd.add .float64 a b = .ok (a + b)) (hc : 0 < count c) :
    ∃ m, meanField cd .float64 c f = .ok m ∧ count c * m = ∑ i ∈ Finset.range (count c), value cd t c f i := by
  unfold meanField
  rw [C60_sum hl hw ht hT hadd, Outcome.bind_ok, hw.sizePoints]
  refine ⟨_, rfl, ?_⟩
  have : (count c : K) ≠ 0 := by exact_mod_cast hc.ne'
  field_simp

/-- C60. The variance of a field as `double` about a mean is the mean of the squared deviations from it (the population
variance when the mean is that of the field). -/
theorem C60_variance [CharZero K] (hl : cd.Lawful rep) {c : Cloud} {f : PField} {t : FT} (hw : WellFormed c) (ht : HasType c f t)
    (hT : ∀ i < count c, rep .float64 (value cd t c f i)) (hc : 0 < count c) (mean : K) :
    ∃ v, varianceField cd .float64 c f mean = .ok v ∧
      count c * v = ∑ i ∈ Finset.range (count c), (value cd t c f i - mean) ^ 2 := by
  unfold varianceField
  rw [getter_ok _ ht.1, Outcome.bind_ok, hw.sizePoints]
  obtain ⟨m, h, h1⟩ := forLoop_inv (fun k m => m = ∑ i ∈ Finset.range k, (value cd t c f i - mean) ^ 2)
    (n := count c) (body := fun i s => readAs cd .float64 t f.offset c i >>= fun v => .ok (s + (v - mean) ^ 2)) (s := 0)
    (by simp) (by
      rintro k m hk rfl
      rw [read_value hl hw ht hT hk, Outcome.bind_ok]
      exact ⟨_, rfl, (Finset.sum_range_succ _ _).symm⟩)
  rw [h, Outcome.bind_ok, h1]
  refine ⟨_, rfl, ?_⟩
  have : (count c : K) ≠ 0 := by exact_mod_cast hc.ne'
  field_simp

variable [LinearOrder K]

/-- A summary tells the extreme values, the mean, the variance and the number of points of a field. -/
structure Summarises (cd : Codec K) (t : FT) (c : Cloud) (f : PField) (s : Summary K) : Prop where
  label : s.label = f.name
  count : s.count = count c
  max_attained : ∃ i < Pcl.count c, value cd t c f i = s.max
  max_greatest : ∀ i < Pcl.count c, value cd t c f i ≤ s.max
  min_attained : ∃ i < Pcl.count c, value cd t c f i = s.min
  min_least : ∀ i < Pcl.count c, s.min ≤ value cd t c f i
  mean : Pcl.count c * s.mean = ∑ i ∈ Finset.range (Pcl.count c), value cd t c f i
  variance : Pcl.count c * s.variance = ∑ i ∈ Finset.range (Pcl.count c), (value cd t c f i - s.mean) ^ 2

/-- C60. `statistics` of a field. -/
theorem C60_statistics_field [CharZero K] (hl : cd.Lawful rep) {c : Cloud} {f : PField} {t : FT} (hw : WellFormed c)
    (ht : HasType c f t) (hT : ∀ i < count c, rep .float64 (value cd t c f i))
    (hadd : ∀ a b, cd.add .float64 a b = .ok (a + b)) (hlow : ∀ v, rep .float64 v → cd.lowest .float64 ≤ v)
    (hhigh : ∀ v, rep .float64 v → v ≤ cd.highest .float64) (hc : 0 < count c) :
    ∃ s, statisticsField cd c f = .ok s ∧ Summarises cd t c f s := by
  obtain ⟨mn, e1, h1, h1'⟩ := C60_min hl hw ht hT hhigh hc
  obtain ⟨mx, e2, h2, h2'⟩ := C60_max hl hw ht hT hlow hc
  obtain ⟨m, e3, h3⟩ := C60_mean hl hw ht hT hadd hc
  obtain ⟨v, e4, h4⟩ := C60_variance hl hw ht hT hc m
  refine ⟨⟨f.name, mn, mx, m, v, count c⟩, ?_, ⟨rfl, rfl, h2, h2', h1, h1', h3, h4⟩⟩
  unfold statisticsField
  rw [e1, Outcome.bind_ok, e2, Outcome.bind_ok, e3, Outcome.bind_ok, e4, Outcome.bind_ok, hw.sizePoints]

/-- C60. `statistics` of a cloud that has points: one summary per field, in the order of the fields. -/
theorem C60_statistics [CharZero K] (hl : cd.Lawful rep) {c : Cloud} (hw : WellFormed c) (ty : PField → FT)
    (ht : ∀ f ∈ c.fields, HasType c f (ty f)) (hT : ∀ f ∈ c.fields, ∀ i < count c, rep .float64 (value cd (ty f) c f i))
    (hadd : ∀ a b, cd.add .float64 a b = .ok (a + b)) (hlow : ∀ v, rep .float64 v → cd.lowest .float64 ≤ v)
    (hhigh : ∀ v, rep .float64 v → v ≤ cd.highest .float64) (hc : 0 < count c) :
    ∃ l, statistics cd c = .ok l ∧ List.Forall₂ (fun f s => Summarises cd (ty f) c f s) c.fields l := by
  unfold statistics
  have gen : ∀ (fs : List PField) (acc : List (Summary K)) (done : List PField), (∀ f ∈ fs, f ∈ c.fields) →
      List.Forall₂ (fun f s => Summarises cd (ty f) c f s) done acc →
      ∃ l, fs.foldlM (fun l f => statisticsField cd c f >>= fun s => Outcome.ok (l ++ [s])) acc = .ok l ∧
        List.Forall₂ (fun f s => Summarises cd (ty f) c f s) (done ++ fs) l := by
    intro fs
    induction fs with
    | nil => intro acc done _ h; exact ⟨acc, rfl, by simpa using h⟩
    | cons f fs ih =>
      intro acc done hm h
      have hf := ht f (hm f (by simp))
      obtain ⟨s, e, hs⟩ := C60_statistics_field hl hw hf (hT f (hm f (by simp))) hadd hlow hhigh hc
      obtain ⟨l, e', hl'⟩ := ih (acc ++ [s]) (done ++ [f]) (fun g hg => hm g (by simp [hg]))
        (List.rel_append h (.cons hs .nil))
      refine ⟨l, ?_, by simpa using hl'⟩
      rw [List.foldlM_cons, e]
      exact e'
  simpa using gen c.fields [] [] (fun f h => h) .nil

end

theorem labels {K : Type} [Field K] [LinearOrder K] {cd : Codec K} {c : Cloud} {ty : PField → FT} {fs : List PField}
    {l : List (Summary K)} (h : List.Forall₂ (fun f s => Summarises cd (ty f) c f s) fs l) :
    l.map (·.label) = fs.map (·.name) := by
  induction h with
  | nil => rfl
  | cons hs _ ih => simp [hs.label, ih]

/-! ### What does not hold -/

/-- Numbers of floating point types, with NaN: every comparison with NaN is false. -/
inductive WithNan where
  | nan
  | num (v : ℚ)

instance : LT WithNan := ⟨fun a b => match a, b with
  | .num a, .num b => a < b
  | _, _ => False⟩

instance : DecidableLT WithNan := fun a b => by
  change Decidable (match a, b with
    | .num a, .num b => a < b
    | _, _ => False)
  cases a <;> cases b <;> infer_instance

/-- The representation of `Ieee`, with the bit patterns of NaN. -/
noncomputable def nanCodec : Codec WithNan where
  dec t bs := if t = .float32 ∧ Ieee.leNat bs / 2 ^ 23 % 2 ^ 8 = 255 ∧ Ieee.leNat bs % 2 ^ 23 ≠ 0 then .nan else .num (Ieee.dec t bs)
  enc t v := match v with
    | .nan => [0, 0, 192, 127]
    | .num v => Ieee.enc t v
  cast _ _ v := .ok v
  add _ a b := match a, b with
    | .num a, .num b => .ok (.num (a + b))
    | _, _ => .ok .nan
  lowest t := .num (Ieee.codec.lowest t)
  highest t := .num (Ieee.codec.highest t)

/-- C60 fails when all values are NaN: the maximum is then the lowest number of the type, which no point has. -/
theorem C60_fails_nan :
    ∃ (c : Cloud) (f : PField), WellFormed c ∧ HasType c f .float32 ∧ count c = 1 ∧
      value nanCodec .float32 c f 0 = .nan ∧
      maxField nanCodec .float32 c f = .ok (nanCodec.lowest .float32) ∧ nanCodec.lowest .float32 ≠ .nan := by
  refine ⟨⟨⟨0, 0, ""⟩, 1, 1, [⟨"a", 0, 7, 1⟩], false, 4, 4, [0, 0, 192, 127], true⟩, ⟨"a", 0, 7, 1⟩,
    ⟨rfl, rfl, by decide, by decide⟩, ⟨rfl, by decide⟩, rfl, ?_, ?_, by simp [nanCodec]⟩
  · show nanCodec.dec .float32 [0, 0, 192, 127] = .nan
    unfold nanCodec
    dsimp only
    rw [if_pos (by decide)]
  · unfold maxField
    rw [if_neg (by decide), getter_ok (t := .float32) _ rfl, Outcome.bind_ok]
    have : nanCodec.dec .float32 [0, 0, 192, 127] = .nan := by
      unfold nanCodec
      dsimp only
      rw [if_pos (by decide)]
    show forLoop 1 _ _ = _
    rw [forLoop_succ, EigenRos.forLoop_zero, Outcome.bind_ok]
    unfold readAs
    dsimp only
    rw [readBytes_ok (by decide), Outcome.bind_ok]
    unfold castTo
    rw [if_pos rfl, Outcome.bind_ok]
    show Outcome.ok (if nanCodec.lowest .float32 < nanCodec.dec .float32 [0, 0, 192, 127] then _ else _) = _
    rw [this]
    exact congrArg _ (if_neg (fun h => by cases h))

/-- C60, with NaN. The maximum of a field whose values can be NaN ignores those: it is the largest of the numbers, and the lowest
number of the type if all values are NaN. -/
theorem C60_nan_max {cd : Codec WithNan} {c : Cloud} {f : PField} {t T : FT} {lo : ℚ} (hw : WellFormed c) (ht : HasType c f t)
    (hT : ∀ i < count c, castTo cd t T (value cd t c f i) = .ok (value cd t c f i)) (hlo : cd.lowest T = .num lo)
    (hlow : ∀ i < count c, ∀ v, value cd t c f i = .num v → lo ≤ v) (hc : 0 < count c) :
    ∃ m, maxField cd T c f = .ok (.num m) ∧ (∀ i < count c, ∀ v, value cd t c f i = .num v → v ≤ m) ∧
      ((∃ i < count c, value cd t c f i = .num m) ∨ (m = lo ∧ ∀ i < count c, value cd t c f i = .nan)) := by
  unfold maxField
  rw [if_neg (by rw [isEmpty_eq hw]; omega), getter_ok T ht.1, Outcome.bind_ok, hw.sizePoints]
  obtain ⟨x, h, m, rfl, h1, h2⟩ := forLoop_inv
    (fun k x => ∃ m, x = WithNan.num m ∧ (∀ i < k, ∀ v, value cd t c f i = .num v → v ≤ m) ∧
      ((∃ i < k, value cd t c f i = .num m) ∨ (m = lo ∧ ∀ i < k, value cd t c f i = .nan)))
    (n := count c) (body := fun i m => readAs cd T t f.offset c i >>= fun v => .ok (if m < v then v else m))
    (s := cd.lowest T) ⟨lo, hlo, fun i hi => by omega, .inr ⟨rfl, fun i hi => by omega⟩⟩ (by
      rintro k x hk ⟨m, rfl, h1, h2⟩
      rw [readAs_eq T hw ht hk, hT k hk, Outcome.bind_ok]
      refine ⟨_, rfl, ?_⟩
      cases hv : value cd t c f k with
      | nan =>
        rw [if_neg (fun h => by cases h)]
        refine ⟨m, rfl, fun i hi v hiv => ?_, ?_⟩
        · rcases Nat.lt_succ_iff_lt_or_eq.1 hi with h | rfl
          · exact h1 i h v hiv
          · rw [hv] at hiv; cases hiv
        · rcases h2 with ⟨i, hi, h2⟩ | ⟨h2, h3⟩
          · exact .inl ⟨i, by omega, h2⟩
          · refine .inr ⟨h2, fun i hi => ?_⟩
            rcases Nat.lt_succ_iff_lt_or_eq.1 hi with h | rfl
            · exact h3 i h
            · exact hv
      | num v =>
        by_cases hlt : m < v
        · rw [if_pos (show WithNan.num m < WithNan.num v from hlt)]
          refine ⟨v, rfl, fun i hi w hiw => ?_, .inl ⟨k, by omega, hv⟩⟩
          rcases Nat.lt_succ_iff_lt_or_eq.1 hi with h | rfl
          · exact (h1 i h w hiw).trans hlt.le
          · rw [hv] at hiw; cases hiw; exact le_rfl
        · rw [if_neg (show ¬ WithNan.num m < WithNan.num v from hlt)]
          refine ⟨m, rfl, fun i hi w hiw => ?_, ?_⟩
          · rcases Nat.lt_succ_iff_lt_or_eq.1 hi with h | rfl
            · exact h1 i h w hiw
            · rw [hv] at hiw; cases hiw; exact not_lt.1 hlt
          · rcases h2 with ⟨i, hi, h2⟩ | ⟨rfl, -⟩
            · exact .inl ⟨i, by omega, h2⟩
            · refine .inl ⟨k, by omega, ?_⟩
              rw [hv, le_antisymm (not_lt.1 hlt) (hlow k hk v hv)])
  exact ⟨m, h, h1, h2⟩

/-- C60, with NaN. The minimum of a field whose values can be NaN ignores those: it is the smallest of the numbers, and the highest
number of the type if all values are NaN. -/
theorem C60_nan_min {cd : Codec WithNan} {c : Cloud} {f : PField} {t T : FT} {hi : ℚ} (hw : WellFormed c) (ht : HasType c f t)
    (hT : ∀ i < count c, castTo cd t T (value cd t c f i) = .ok (value cd t c f i)) (hhi : cd.highest T = .num hi)
    (hhigh : ∀ i < count c, ∀ v, value cd t c f i = .num v → v ≤ hi) (hc : 0 < count c) :
    ∃ m, minField cd T c f = .ok (.num m) ∧ (∀ i < count c, ∀ v, value cd t c f i = .num v → m ≤ v) ∧
      ((∃ i < count c, value cd t c f i = .num m) ∨ (m = hi ∧ ∀ i < count c, value cd t c f i = .nan)) := by
  unfold minField
  rw [if_neg (by rw [isEmpty_eq hw]; omega), getter_ok T ht.1, Outcome.bind_ok, hw.sizePoints]
  obtain ⟨x, h, m, rfl, h1, h2⟩ := forLoop_inv
    (fun k x => ∃ m, x = WithNan.num m ∧ (∀ i < k, ∀ v, value cd t c f i = .num v → m ≤ v) ∧
      ((∃ i < k, value cd t c f i = .num m) ∨ (m = hi ∧ ∀ i < k, value cd t c f i = .nan)))
    (n := count c) (body := fun i m => readAs cd T t f.offset c i >>= fun v => .ok (if v < m then v else m))
    (s := cd.highest T) ⟨hi, hhi, fun i hi => by omega, .inr ⟨rfl, fun i hi => by omega⟩⟩ (by
      rintro k x hk ⟨m, rfl, h1, h2⟩
      rw [readAs_eq T hw ht hk, hT k hk, Outcome.bind_ok]
      refine ⟨_, rfl, ?_⟩
      cases hv : value cd t c f k with
      | nan =>
        rw [if_neg (fun h => by cases h)]
        refine ⟨m, rfl, fun i hi v hiv => ?_, ?_⟩
        · rcases Nat.lt_succ_iff_lt_or_eq.1 hi with h | rfl
          · exact h1 i h v hiv
          · rw [hv] at hiv; cases hiv
        · rcases h2 with ⟨i, hi, h2⟩ | ⟨h2, h3⟩
          · exact .inl ⟨i, by omega, h2⟩
          · refine .inr ⟨h2, fun i hi => ?_⟩
            rcases Nat.lt_succ_iff_lt_or_eq.1 hi with h | rfl
            · exact h3 i h
            · exact hv
      | num v =>
        by_cases hlt : v < m
        · rw [if_pos (show WithNan.num v < WithNan.num m from hlt)]
          refine ⟨v, rfl, fun i hi w hiw => ?_, .inl ⟨k, by omega, hv⟩⟩
          rcases Nat.lt_succ_iff_lt_or_eq.1 hi with h | rfl
          · exact hlt.le.trans (h1 i h w hiw)
          · rw [hv] at hiw; cases hiw; exact le_rfl
        · rw [if_neg (show ¬ WithNan.num v < WithNan.num m from hlt)]
          refine ⟨m, rfl, fun i hi w hiw => ?_, ?_⟩
          · rcases Nat.lt_succ_iff_lt_or_eq.1 hi with h | rfl
            · exact h1 i h w hiw
            · rw [hv] at hiw; cases hiw; exact not_lt.1 hlt
          · rcases h2 with ⟨i, hi, h2⟩ | ⟨rfl, -⟩
            · exact .inl ⟨i, by omega, h2⟩
            · refine .inl ⟨k, by omega, ?_⟩
              rw [hv, le_antisymm (hhigh k hk v hv) (not_lt.1 hlt)])
  exact ⟨m, h, h1, h2⟩

/-- A cloud with the values NaN and 1. -/
example : ∃ (c : Cloud) (f : PField), WellFormed c ∧ HasType c f .float32 ∧ count c = 2 ∧ value nanCodec .float32 c f 0 = .nan ∧
    maxField nanCodec .float32 c f = .ok (.num 1) ∧ minField nanCodec .float32 c f = .ok (.num 1) := by
  have hw : WellFormed ⟨⟨0, 0, ""⟩, 1, 2, [⟨"a", 0, 7, 1⟩], false, 4, 8, [0, 0, 192, 127, 0, 0, 128, 63], true⟩ :=
    ⟨rfl, rfl, by decide, by decide⟩
  have ht : HasType ⟨⟨0, 0, ""⟩, 1, 2, [⟨"a", 0, 7, 1⟩], false, 4, 8, [0, 0, 192, 127, 0, 0, 128, 63], true⟩ ⟨"a", 0, 7, 1⟩
    .float32 := ⟨rfl, by decide⟩
  have v0 : nanCodec.dec .float32 [0, 0, 192, 127] = .nan := by
    unfold nanCodec; dsimp only; rw [if_pos (by decide)]
  have v1 : nanCodec.dec .float32 [0, 0, 128, 63] = .num 1 := by
    unfold nanCodec; dsimp only; rw [if_neg (by decide)]
    exact congrArg _ (by decide +kernel : Ieee.dec .float32 [0, 0, 128, 63] = 1)
  have r1 : Ieee.rep .float32 1 := by
    have := Ieee.lawful.dec_rep .float32 [0, 0, 128, 63] rfl
    rwa [show Ieee.codec.dec .float32 [0, 0, 128, 63] = 1 from (by decide +kernel : Ieee.dec .float32 [0, 0, 128, 63] = 1)] at this
  have hv : ∀ i < 2, ∀ v, value nanCodec .float32
      ⟨⟨0, 0, ""⟩, 1, 2, [⟨"a", 0, 7, 1⟩], false, 4, 8, [0, 0, 192, 127, 0, 0, 128, 63], true⟩ ⟨"a", 0, 7, 1⟩ i = .num v →
      v = 1 := by
    intro i hi v h
    match i, hi with
    | 0, _ => change nanCodec.dec .float32 [0, 0, 192, 127] = _ at h; rw [v0] at h; cases h
    | 1, _ => change nanCodec.dec .float32 [0, 0, 128, 63] = _ at h; rw [v1] at h; cases h; rfl
  refine ⟨_, _, hw, ht, rfl, v0, ?_, ?_⟩
  · obtain ⟨m, h, h1, h2⟩ := C60_nan_max (cd := nanCodec) (T := .float32) (lo := Ieee.codec.lowest .float32) hw ht
      (fun i _ => by unfold castTo; rw [if_pos rfl]) rfl
      (fun i hi v h => by rw [hv i hi v h]; exact Ieee.lowest_le _ _ r1) (by decide)
    rcases h2 with ⟨i, hi, h2⟩ | ⟨-, h2⟩
    · rw [h, hv i hi m h2]
    · have := h2 1 (by decide)
      change nanCodec.dec .float32 [0, 0, 128, 63] = _ at this
      rw [v1] at this; cases this
  · obtain ⟨m, h, h1, h2⟩ := C60_nan_min (cd := nanCodec) (T := .float32) (hi := Ieee.codec.highest .float32) hw ht
      (fun i _ => by unfold castTo; rw [if_pos rfl]) rfl
      (fun i hi v h => by rw [hv i hi v h]; exact Ieee.le_highest _ _ r1) (by decide)
    rcases h2 with ⟨i, hi, h2⟩ | ⟨-, h2⟩
    · rw [h, hv i hi m h2]
    · have := h2 1 (by decide)
      change nanCodec.dec .float32 [0, 0, 128, 63] = _ at this
      rw [v1] at this; cases this

/-- The additions of the representation of `Ieee` meet the hypothesis of `C60_sum_representable`: the sum of 100 and 50 as
`std::uint8_t`. -/
example : ∃ (c : Cloud) (f : PField), WellFormed c ∧ HasType c f .uint8 ∧ count c = 2 ∧
    sumField Ieee.codec .uint8 c f = .ok 150 := by
  have d1 : Ieee.codec.dec .uint8 [100] = 100 := by decide +kernel
  have d2 : Ieee.codec.dec .uint8 [50] = 50 := by decide +kernel
  have d3 : Ieee.codec.dec .uint8 [150] = 150 := by decide +kernel
  have hw : WellFormed ⟨⟨0, 0, ""⟩, 1, 2, [⟨"a", 0, 2, 1⟩], false, 1, 2, [100, 50], true⟩ := ⟨rfl, rfl, by decide, by decide⟩
  have ht : HasType ⟨⟨0, 0, ""⟩, 1, 2, [⟨"a", 0, 2, 1⟩], false, 1, 2, [100, 50], true⟩ ⟨"a", 0, 2, 1⟩ .uint8 := ⟨rfl, by decide⟩
  have v0 : value Ieee.codec .uint8 ⟨⟨0, 0, ""⟩, 1, 2, [⟨"a", 0, 2, 1⟩], false, 1, 2, [100, 50], true⟩ ⟨"a", 0, 2, 1⟩ 0 = 100 := d1
  have v1 : value Ieee.codec .uint8 ⟨⟨0, 0, ""⟩, 1, 2, [⟨"a", 0, 2, 1⟩], false, 1, 2, [100, 50], true⟩ ⟨"a", 0, 2, 1⟩ 1 = 50 := d2
  have r1 := Ieee.lawful.dec_rep .uint8 [100] rfl
  have r2 := Ieee.lawful.dec_rep .uint8 [50] rfl
  have r3 := Ieee.lawful.dec_rep .uint8 [150] rfl
  rw [d1] at r1
  rw [d2] at r2
  rw [d3] at r3
  refine ⟨_, _, hw, ht, rfl, ?_⟩
  rw [C60_sum_representable Ieee.lawful hw ht (T := .uint8) ?_ ?_ ?_]
  · show Outcome.ok (∑ i ∈ Finset.range 2, _) = _
    rw [Finset.sum_range_succ, Finset.sum_range_one, v0, v1]
    norm_num
  · intro i hi
    match i, hi with
    | 0, _ => rw [v0]; exact r1
    | 1, _ => rw [v1]; exact r2
  · intro a b hab
    unfold Ieee.codec
    dsimp only
    rw [if_neg (by decide : ¬ Ieee.isFloat .uint8 = true), if_pos hab]
  · intro k hk
    match k, hk with
    | 0, _ => rw [Finset.sum_range_one, v0]; exact r1
    | 1, _ => rw [Finset.sum_range_succ, Finset.sum_range_one, v0, v1]; norm_num; exact r3

/-- C60 fails for a mean in an integer type: the sum is computed in that type and wraps around. The mean of 200 and 100 as
`std::uint8_t` is 22. -/
theorem C60_fails_integer_mean :
    ∃ (c : Cloud) (f : PField), WellFormed c ∧ HasType c f .uint8 ∧ count c = 2 ∧
      value Ieee.codec .uint8 c f 0 = 200 ∧ value Ieee.codec .uint8 c f 1 = 100 ∧
      sumField Ieee.codec .uint8 c f = .ok 44 := by
  have d1 : Ieee.codec.dec .uint8 [200] = 200 := by decide +kernel
  have d2 : Ieee.codec.dec .uint8 [100] = 100 := by decide +kernel
  refine ⟨⟨⟨0, 0, ""⟩, 1, 2, [⟨"a", 0, 2, 1⟩], false, 1, 2, [200, 100], true⟩, ⟨"a", 0, 2, 1⟩,
    ⟨rfl, rfl, by decide, by decide⟩, ⟨rfl, by decide⟩, rfl, d1, d2, ?_⟩
  unfold sumField
  rw [getter_ok (t := .uint8) _ rfl, Outcome.bind_ok]
  show forLoop 2 _ _ = _
  rw [forLoop_succ, forLoop_succ, EigenRos.forLoop_zero, Outcome.bind_ok]
  unfold readAs
  dsimp only
  rw [readBytes_ok (by decide), Outcome.bind_ok]
  unfold castTo
  rw [if_pos rfl, Outcome.bind_ok]
  show (Ieee.codec.add .uint8 0 (Ieee.codec.dec .uint8 [200]) >>= fun s =>
    readBytes [200, 100] 1 1 >>= fun bs => Outcome.ok (Ieee.codec.dec .uint8 bs) >>= fun v => Ieee.codec.add .uint8 s v) = _
  classical
  have a1 : Ieee.codec.add .uint8 0 200 = .ok 200 := by
    unfold Ieee.codec
    dsimp only
    rw [if_neg (by decide), if_pos ⟨[200], rfl, by decide +kernel⟩]
    norm_num
  have a2 : Ieee.codec.add .uint8 200 100 = .ok 44 := by
    unfold Ieee.codec
    dsimp only
    rw [if_neg (by decide), if_neg, if_neg (by decide)]
    · have : Ieee.enc .uint8 ((200 : ℚ) + 100) = [44] := by decide +kernel
      rw [this]
      decide +kernel
    · rintro ⟨bs, hb, e⟩
      have h1 := Ieee.leNat_lt bs
      rw [hb] at h1
      have h2 : Ieee.dec .uint8 bs = (Ieee.leNat bs : ℚ) := rfl
      rw [h2] at e
      have : (Ieee.leNat bs : ℚ) < 256 := by exact_mod_cast h1
      linarith
  rw [d1, a1, Outcome.bind_ok, readBytes_ok (by decide), Outcome.bind_ok, Outcome.bind_ok]
  show Ieee.codec.add .uint8 200 (Ieee.codec.dec .uint8 [100]) = _
  rw [d2, a2]

/-- C60 fails for fields with several elements per point: only the first element of each point counts. The maximum of a field
with the elements 1 and 9 is 1. -/
theorem C60_fails_elements :
    ∃ (c : Cloud) (f : PField), WellFormed c ∧ count c = 1 ∧ f.datatype = 2 ∧ f.count = 2 ∧ f.offset = 0 ∧ c.data = [1, 9] ∧
      maxField Ieee.codec .uint8 c f = .ok 1 := by
  have hc : count ⟨⟨0, 0, ""⟩, 1, 1, [⟨"a", 0, 2, 2⟩], false, 2, 2, [1, 9], true⟩ = 1 := rfl
  have hw : WellFormed ⟨⟨0, 0, ""⟩, 1, 1, [⟨"a", 0, 2, 2⟩], false, 2, 2, [1, 9], true⟩ := ⟨rfl, rfl, by decide, by decide⟩
  have ht : HasType ⟨⟨0, 0, ""⟩, 1, 1, [⟨"a", 0, 2, 2⟩], false, 2, 2, [1, 9], true⟩ ⟨"a", 0, 2, 2⟩ .uint8 := ⟨rfl, by decide⟩
  refine ⟨⟨⟨0, 0, ""⟩, 1, 1, [⟨"a", 0, 2, 2⟩], false, 2, 2, [1, 9], true⟩, ⟨"a", 0, 2, 2⟩, hw, rfl, rfl, rfl, rfl, rfl, ?_⟩
  obtain ⟨m, h, ⟨i, hi, hm⟩, -⟩ := C60_max (T := .uint8) Ieee.lawful hw ht
    (fun i hi => value_rep Ieee.lawful hw ht hi) (Ieee.lowest_le _) (by rw [hc]; decide)
  rw [hc] at hi
  obtain rfl : i = 0 := by omega
  rw [h, ← hm]
  have : Ieee.codec.dec .uint8 [1] = 1 := by decide +kernel
  exact congrArg _ this

/-- The hypotheses of `C60_statistics` are met by a cloud with two points. -/
example : ∃ l, statistics Ieee.codec twoPoints = .ok l ∧ l.map (·.label) = ["a", "b"] := by
  obtain ⟨hw, ht, hc, ht', -⟩ := twoPoints_meets
  have h513 : Ieee.rep .float64 513 := ⟨[0, 0, 0, 0, 0, 8, 128, 64], rfl, by decide +kernel⟩
  have h5 : Ieee.rep .float64 5 := ⟨[0, 0, 0, 0, 0, 0, 20, 64], rfl, by decide +kernel⟩
  have h3 : Ieee.rep .float64 3 := ⟨[0, 0, 0, 0, 0, 0, 8, 64], rfl, by decide +kernel⟩
  have h7 : Ieee.rep .float64 7 := ⟨[0, 0, 0, 0, 0, 0, 28, 64], rfl, by decide +kernel⟩
  obtain ⟨l, h, hl⟩ := C60_statistics Ieee.lawful hw (fun f => if f.name = "a" then .uint16 else .uint8)
    (by
      intro f hf
      have : f = ⟨"a", 0, 4, 1⟩ ∨ f = ⟨"b", 3, 2, 1⟩ := by simpa [twoPoints] using hf
      rcases this with rfl | rfl
      · exact ht
      · exact ht')
    (by
      intro f hf i hi
      have : f = ⟨"a", 0, 4, 1⟩ ∨ f = ⟨"b", 3, 2, 1⟩ := by simpa [twoPoints] using hf
      rw [hc] at hi
      have hi : i = 0 ∨ i = 1 := by omega
      rcases this with rfl | rfl <;> rcases hi with rfl | rfl
      · have : value Ieee.codec .uint16 twoPoints ⟨"a", 0, 4, 1⟩ 0 = 513 := by decide +kernel
        exact this ▸ h513
      · have : value Ieee.codec .uint16 twoPoints ⟨"a", 0, 4, 1⟩ 1 = 5 := by decide +kernel
        exact this ▸ h5
      · have : value Ieee.codec .uint8 twoPoints ⟨"b", 3, 2, 1⟩ 0 = 3 := by decide +kernel
        exact this ▸ h3
      · have : value Ieee.codec .uint8 twoPoints ⟨"b", 3, 2, 1⟩ 1 = 7 := by decide +kernel
        exact this ▸ h7)
    (fun a b => by unfold Ieee.codec; dsimp only; rw [if_pos (by rfl)]) (Ieee.lowest_le _) (Ieee.le_highest _) (by rw [hc]; decide)
  refine ⟨l, h, ?_⟩
  exact labels hl

/-- The hypotheses of `C60_max` are met by a cloud with two points. -/
example : ∃ m, maxField Ieee.codec .uint16 twoPoints ⟨"a", 0, 4, 1⟩ = .ok m ∧
    ∀ i < 2, value Ieee.codec .uint16 twoPoints ⟨"a", 0, 4, 1⟩ i ≤ m := by
  obtain ⟨hw, ht, hc, -⟩ := twoPoints_meets
  obtain ⟨m, h, -, h2⟩ := C60_max (T := .uint16) Ieee.lawful hw ht (fun i hi => value_rep Ieee.lawful hw ht hi)
    (Ieee.lowest_le _) (by rw [hc]; decide)
  exact ⟨m, h, by rw [hc] at h2; exact h2⟩

end Pcl

end Serpent
