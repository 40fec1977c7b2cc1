import Verif.Model.CloudTransform
import Verif.Lemmas.Iso
import Mathlib.Algebra.Field.Rat

/-!
# C82: transforming point clouds
-/

namespace Serpent

namespace CloudTransform

open Matrix EigenExt

variable {K F : Type}

/-- The three fields are the finite numbers `x`. -/
def Vec.Is (v : Vec K) (x : Fin 3 → K) : Prop := ∀ i, v i = some (x i)

theorem finite?_eq {v : Vec K} {x : Fin 3 → K} : v.finite? = some x ↔ v.Is x := by
  unfold Vec.finite? Vec.Is
  cases h0 : v 0 <;> cases h1 : v 1 <;> cases h2 : v 2 <;>
    simp only [reduceCtorEq, Option.some.injEq, Fin.forall_fin_succ, Fin.succ_zero_eq_one, Fin.succ_one_eq_two,
      IsEmpty.forall_iff, h0, h1, h2, false_and, and_false, and_true]
  constructor
  · rintro rfl
    exact ⟨rfl, rfl, rfl⟩
  · rintro ⟨rfl, rfl, rfl⟩
    funext i
    fin_cases i <;> rfl

theorem finite?_none {v : Vec K} : v.finite? = none ↔ ¬ ∃ x, v.Is x := by
  cases h : v.finite? with
  | none =>
    simp only [true_iff]
    rintro ⟨x, hx⟩
    rw [finite?_eq.2 hx] at h
    cases h
  | some x => simpa using ⟨x, finite?_eq.1 h⟩

section
variable [CommRing K]

omit [CommRing K] in
theorem onFinite_is {f : (Fin 3 → K) → Fin 3 → K} {v : Vec K} {x : Fin 3 → K} (h : v.Is x) :
    (onFinite f v).Is (f x) := by
  unfold onFinite
  rw [finite?_eq.2 h]
  exact fun i => rfl

theorem ofMatrix_getMatrix_rotate (c : Packed K) (R : Matrix (Fin 3) (Fin 3) K) :
    (Packed.ofMatrix (rotatePointCovariance c.getMatrix R)).getMatrix = R * c.getMatrix * Rᵀ := by
  have hs : c.getMatrixᵀ = c.getMatrix := by
    ext i j
    fin_cases i <;> fin_cases j <;> rfl
  have h : (rotatePointCovariance c.getMatrix R)ᵀ = rotatePointCovariance c.getMatrix R := by
    unfold rotatePointCovariance
    rw [transpose_mul, transpose_mul, transpose_transpose, hs, Matrix.mul_assoc]
  have e : ∀ i j, (rotatePointCovariance c.getMatrix R) j i = (rotatePointCovariance c.getMatrix R) i j :=
    fun i j => congrFun (congrFun h i) j
  change _ = rotatePointCovariance c.getMatrix R
  generalize rotatePointCovariance c.getMatrix R = M at e
  ext i j
  fin_cases i <;> fin_cases j <;> simp [Packed.ofMatrix, Packed.getMatrix, e 0 1, e 0 2, e 1 2]

theorem resize_length {α : Type} (d : α) (l : List α) (n : Nat) : (resize d l n).length = n := by
  unfold resize
  rw [List.length_append, List.length_take, List.length_replicate]
  omega

theorem transformWith_length (body : Point K F → Point K F → Point K F) (f0 : F) (src : Cloud K F)
    (dst : Option (Cloud K F)) (copyAll : Bool) :
    (transformWith body f0 src dst copyAll).points.length = src.points.length := by
  unfold transformWith loop
  simp only [List.length_zipWith]
  cases dst with
  | none => simp
  | some d => cases copyAll <;> simp [resize_length]

/-- A point of the output: the point at this place of the prepared output is passed to the loop body. -/
theorem transformWith_get (body : Point K F → Point K F → Point K F) (f0 : F) (src : Cloud K F)
    (dst : Option (Cloud K F)) (copyAll : Bool) {i : Nat} {p : Point K F} (hp : src.points[i]? = some p) :
    ∃ q0, (dst = none ∨ copyAll = true → q0 = p) ∧
      (transformWith body f0 src dst copyAll).points[i]? =
        some (if src.isDense then body p q0 else if p.pos.finite?.isNone then q0 else body p q0) := by
  have hi : i < src.points.length := by
    rcases Nat.lt_or_ge i src.points.length with h | h
    · exact h
    · rw [List.getElem?_eq_none h] at hp; cases hp
  unfold transformWith loop
  simp only [List.getElem?_zipWith, hp]
  cases dst with
  | none => exact ⟨p, fun _ => rfl, by simp [hp]⟩
  | some d =>
    cases copyAll with
    | true => exact ⟨p, fun _ => rfl, by simp [hp]⟩
    | false =>
      have hr : i < (resize (Point.zero f0) d.points src.points.length).length := by rw [resize_length]; exact hi
      refine ⟨(resize (Point.zero f0) d.points src.points.length)[i], by simp, ?_⟩
      simp [List.getElem?_eq_getElem hr]

/-- C82. The cloud with unit vectors: header, size and density flag are those of the input; at every place the position is
transformed, the normal and the unit vector are rotated. -/
theorem C82_units (f0 : F) (src : Cloud K F) (dst : Option (Cloud K F)) (T : Iso K) (copyAll : Bool) :
    let out := transformUnits f0 src dst T copyAll
    (out.stamp = src.stamp ∧ out.frame = src.frame ∧ out.width = src.width ∧ out.height = src.height ∧
      out.isDense = src.isDense ∧ out.points.length = src.points.length) ∧
    ∀ (i : Nat) (p : Point K F), src.points[i]? = some p → ∃ q, out.points[i]? = some q ∧
      ∀ x, p.pos.Is x → q.pos.Is (T.R *ᵥ x + T.t) ∧ (∀ n, p.normal.Is n → q.normal.Is (T.R *ᵥ n)) ∧
        (∀ u, p.unit.Is u → q.unit.Is (T.R *ᵥ u)) := by
  refine ⟨⟨rfl, rfl, rfl, rfl, rfl, transformWith_length _ _ _ _ _⟩, fun i p hp => ?_⟩
  obtain ⟨q0, _, h⟩ := transformWith_get (bodyUnit T) f0 src dst copyAll hp
  refine ⟨_, h, fun x hx => ?_⟩
  rw [finite?_eq.2 hx]
  simp only [Option.isNone_some, Bool.false_eq_true, if_false, ite_self]
  exact ⟨onFinite_is hx, fun n hn => onFinite_is hn, fun u hu => onFinite_is hu⟩

/-- C82. The cloud with covariances: also the covariance is rotated. -/
theorem C82_covariances (f0 : F) (src : Cloud K F) (dst : Option (Cloud K F)) (T : Iso K) (copyAll : Bool) :
    let out := transformCovs f0 src dst T copyAll
    (out.stamp = src.stamp ∧ out.frame = src.frame ∧ out.width = src.width ∧ out.height = src.height ∧
      out.isDense = src.isDense ∧ out.points.length = src.points.length) ∧
    ∀ (i : Nat) (p : Point K F), src.points[i]? = some p → ∃ q, out.points[i]? = some q ∧
      ∀ x, p.pos.Is x → q.pos.Is (T.R *ᵥ x + T.t) ∧ (∀ n, p.normal.Is n → q.normal.Is (T.R *ᵥ n)) ∧
        q.cov.getMatrix = T.R * p.cov.getMatrix * T.Rᵀ := by
  refine ⟨⟨rfl, rfl, rfl, rfl, rfl, transformWith_length _ _ _ _ _⟩, fun i p hp => ?_⟩
  obtain ⟨q0, _, h⟩ := transformWith_get (bodyCov T) f0 src dst copyAll hp
  refine ⟨_, h, fun x hx => ?_⟩
  rw [finite?_eq.2 hx]
  simp only [Option.isNone_some, Bool.false_eq_true, if_false, ite_self]
  exact ⟨onFinite_is hx, fun n hn => onFinite_is hn, ofMatrix_getMatrix_rotate _ _⟩

/-- C82. In place or with all fields copied (the default), the remaining fields are kept, and points that are not finite are left
as they are if the cloud is not marked as dense. -/
theorem C82_other_fields_partial (f0 : F) (src : Cloud K F) (dst : Option (Cloud K F)) (T : Iso K) (copyAll : Bool)
    (hc : dst = none ∨ copyAll = true) (i : Nat) (p : Point K F) (hp : src.points[i]? = some p) :
    (∃ q, (transformUnits f0 src dst T copyAll).points[i]? = some q ∧ q.other = p.other ∧ q.cov = p.cov ∧
      (src.isDense = false → (¬ ∃ x, p.pos.Is x) → q = p)) ∧
    (∃ q, (transformCovs f0 src dst T copyAll).points[i]? = some q ∧ q.other = p.other ∧ q.unit = p.unit ∧
      (src.isDense = false → (¬ ∃ x, p.pos.Is x) → q = p)) := by
  constructor
  · obtain ⟨q0, h0, h⟩ := transformWith_get (bodyUnit T) f0 src dst copyAll hp
    obtain rfl := h0 hc
    refine ⟨_, h, ?_, ?_, fun hd hx => ?_⟩
    · split
      · rfl
      · split <;> rfl
    · split
      · rfl
      · split <;> rfl
    · rw [if_neg (by simp [hd]), if_pos (by rw [finite?_none.2 hx]; rfl)]
  · obtain ⟨q0, h0, h⟩ := transformWith_get (bodyCov T) f0 src dst copyAll hp
    obtain rfl := h0 hc
    refine ⟨_, h, ?_, ?_, fun hd hx => ?_⟩
    · split
      · rfl
      · split <;> rfl
    · split
      · rfl
      · split <;> rfl
    · rw [if_neg (by simp [hd]), if_pos (by rw [finite?_none.2 hx]; rfl)]

/-- A point whose vectors are finite. -/
def Point.Finite (p : Point K F) : Prop := (∃ x, p.pos.Is x) ∧ (∃ x, p.normal.Is x) ∧ (∃ x, p.unit.Is x)

omit [CommRing K] in
theorem onFinite_comp {f g h : (Fin 3 → K) → Fin 3 → K} (e : ∀ x, f (g x) = h x) (v : Vec K) :
    onFinite f (onFinite g v) = onFinite h v := by
  cases hv : v.finite? with
  | some x =>
    have hx := finite?_eq.1 hv
    funext i
    rw [onFinite_is (onFinite_is hx) i, onFinite_is hx i, e]
  | none =>
    have : onFinite g v = fun _ => none := by unfold onFinite; rw [hv]
    rw [this]
    unfold onFinite
    rw [hv]
    rfl

omit [CommRing K] in
theorem onFinite_id {f : (Fin 3 → K) → Fin 3 → K} (e : ∀ x, f x = x) {v : Vec K} (hv : ∃ x, v.Is x) : onFinite f v = v := by
  obtain ⟨x, hx⟩ := hv
  funext i
  rw [onFinite_is hx i, e, hx i]

omit [CommRing K] in
theorem onFinite_none_iff (f : (Fin 3 → K) → Fin 3 → K) (v : Vec K) :
    (onFinite f v).finite?.isNone = v.finite?.isNone := by
  cases hv : v.finite? with
  | some x => rw [finite?_eq.2 (onFinite_is (finite?_eq.1 hv))]; rfl
  | none =>
    unfold onFinite
    rw [hv]
    rfl

omit [CommRing K] in
theorem Packed.ext_matrix {c d : Packed K} (h : c.getMatrix = d.getMatrix) : c = d := by
  cases c; cases d
  have e := fun i j => congrFun (congrFun h i) j
  have e0 := e 0 0; have e1 := e 0 1; have e2 := e 0 2; have e3 := e 1 1; have e4 := e 1 2; have e5 := e 2 2
  simp [Packed.getMatrix] at e0 e1 e2 e3 e4 e5
  simp [e0, e1, e2, e3, e4, e5]

/-- C82. Transforming in place twice is transforming once with the product, whatever the points are. -/
theorem C82_composition (f0 : F) (src : Cloud K F) (S T : Iso K) (c : Bool) :
    transformUnits f0 (transformUnits f0 src none T c) none S c = transformUnits f0 src none (S * T) c ∧
    transformCovs f0 (transformCovs f0 src none T c) none S c = transformCovs f0 src none (S * T) c := by
  have hp : ∀ v : Vec K, se3 S (se3 T v) = se3 (S * T) v := onFinite_comp fun x => (Iso.apply_mul S T x).symm
  have hr : ∀ v : Vec K, so3 S (so3 T v) = so3 (S * T) v := onFinite_comp fun x => by
    rw [mulVec_mulVec]; rfl
  have hn : ∀ v : Vec K, (se3 T v).finite?.isNone = v.finite?.isNone := onFinite_none_iff _
  have hc : ∀ C : Packed K, Packed.ofMatrix (rotatePointCovariance
      (Packed.ofMatrix (rotatePointCovariance C.getMatrix T.R)).getMatrix S.R) =
      Packed.ofMatrix (rotatePointCovariance C.getMatrix (S * T).R) := fun C => by
    apply Packed.ext_matrix
    rw [ofMatrix_getMatrix_rotate, ofMatrix_getMatrix_rotate, ofMatrix_getMatrix_rotate, Iso.mul_R, transpose_mul]
    simp only [Matrix.mul_assoc]
  have zip : ∀ (f : Point K F → Point K F → Point K F) (l : List (Point K F)),
      List.zipWith f l l = l.map fun p => f p p := by
    intro f l
    induction l with
    | nil => rfl
    | cons a l ih => rw [List.zipWith_cons_cons, ih]; rfl
  constructor
  · unfold transformUnits transformWith loop
    simp only [zip, List.map_map]
    congr 1
    refine List.map_congr_left fun p _ => ?_
    simp only [Function.comp]
    cases src.isDense
    · simp only [Bool.false_eq_true, if_false]
      by_cases h : p.pos.finite?.isNone = true
      · simp [h]
      · simp only [if_neg h, bodyUnit, hn, hp, hr]
    · simp [bodyUnit, hp, hr]
  · unfold transformCovs transformWith loop
    simp only [zip, List.map_map]
    congr 1
    refine List.map_congr_left fun p _ => ?_
    simp only [Function.comp]
    cases src.isDense
    · simp only [Bool.false_eq_true, if_false]
      by_cases h : p.pos.finite?.isNone = true
      · simp [h]
      · simp only [if_neg h, bodyCov, hn, hp, hr, hc]
    · simp [bodyCov, hp, hr, hc]

/-- C82. Transforming with a rigid transform and back restores a cloud of finite points. -/
theorem C82_restore (f0 : F) (src : Cloud K F) {T : Iso K} (hT : Rigid T) (c : Bool)
    (hf : ∀ p ∈ src.points, p.Finite) :
    transformUnits f0 (transformUnits f0 src none T c) none T⁻¹ c = src ∧
    transformCovs f0 (transformCovs f0 src none T c) none T⁻¹ c = src := by
  obtain ⟨h1, h2⟩ := C82_composition f0 src T⁻¹ T c
  rw [h1, h2, hT.inv_mul]
  have zip : ∀ (f : Point K F → Point K F → Point K F) (l : List (Point K F)), (∀ p ∈ l, f p p = p) →
      List.zipWith f l l = l := by
    intro f l hl
    induction l with
    | nil => rfl
    | cons a l ih =>
      rw [List.zipWith_cons_cons, ih fun p hp => hl p (List.mem_cons_of_mem _ hp), hl a List.mem_cons_self]
  have hp : ∀ v : Vec K, (∃ x, v.Is x) → se3 1 v = v := fun v => onFinite_id Iso.apply_one
  have hr : ∀ v : Vec K, (∃ x, v.Is x) → so3 1 v = v := fun v => onFinite_id fun x => by rw [Iso.one_R, one_mulVec]
  have hb : ∀ p ∈ src.points, bodyUnit 1 p p = p ∧ bodyCov 1 p p = p := fun p hpm => by
    obtain ⟨h1, h2, h3⟩ := hf p hpm
    have hc : Packed.ofMatrix (rotatePointCovariance p.cov.getMatrix (1 : Iso K).R) = p.cov := by
      apply Packed.ext_matrix
      rw [ofMatrix_getMatrix_rotate, Iso.one_R]
      simp
    constructor
    · unfold bodyUnit
      rw [hp _ h1, hr _ h2, hr _ h3]
    · unfold bodyCov
      rw [hp _ h1, hr _ h2, hc]
  constructor
  · unfold transformUnits transformWith loop
    dsimp only
    rw [zip _ _ fun p hpm => by rw [(hb p hpm).1]; simp]
  · unfold transformCovs transformWith loop
    dsimp only
    rw [zip _ _ fun p hpm => by rw [(hb p hpm).2]; simp]

end

/-- The cloud of one point that is not finite. -/
def nanCloud : Cloud ℚ Unit :=
  ⟨7, "lidar", 1, 1, false, [⟨![none, some 1, some 2], fun _ => none, fun _ => none, ⟨0, 0, 0, 0, 0, 0⟩, ()⟩]⟩

/-- C82 fails without copying all fields: a point that is not finite becomes the origin. -/
theorem C82_fails_not_copied (T : Iso ℚ) :
    (∀ p ∈ nanCloud.points, ¬ ∃ x, p.pos.Is x) ∧
    ∃ q, (transformUnits () nanCloud (some ⟨0, "", 0, 0, true, []⟩) T false).points = [q] ∧ q.pos.Is 0 := by
  refine ⟨fun p hp => ?_, _, rfl, fun i => rfl⟩
  simp only [nanCloud, List.mem_singleton] at hp
  subst hp
  rintro ⟨x, hx⟩
  have := hx 0
  simp at this

/-- A case of finite points. -/
example : (⟨![some 1, some 2, some 3], ![some 0, some 0, some 1], ![some 1, some 0, some 0], ⟨1, 0, 0, 1, 0, 1⟩, ()⟩ :
    Point ℚ Unit).Finite :=
  ⟨⟨![1, 2, 3], fun i => by fin_cases i <;> rfl⟩, ⟨![0, 0, 1], fun i => by fin_cases i <;> rfl⟩,
    ⟨![1, 0, 0], fun i => by fin_cases i <;> rfl⟩⟩

end CloudTransform

end Serpent
