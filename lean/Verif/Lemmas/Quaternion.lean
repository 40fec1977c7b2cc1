import Verif.Model.Quaternion
import Verif.Lemmas.Iso
import Verif.Spec.Geometry
import Mathlib.Analysis.SpecialFunctions.Complex.Arg

/-! # Quaternions and rotation matrices -/

namespace Serpent

namespace EigenExt

open Matrix

namespace Quat

/-- Quaternions of length one. -/
def Unit (q : Quat) : Prop := q.w ^ 2 + q.x ^ 2 + q.y ^ 2 + q.z ^ 2 = 1

theorem mul_w (a b : Quat) : (a * b).w = a.w * b.w - a.x * b.x - a.y * b.y - a.z * b.z := rfl
theorem mul_x (a b : Quat) : (a * b).x = a.w * b.x + a.x * b.w + a.y * b.z - a.z * b.y := rfl
theorem mul_y (a b : Quat) : (a * b).y = a.w * b.y + a.y * b.w + a.z * b.x - a.x * b.z := rfl
theorem mul_z (a b : Quat) : (a * b).z = a.w * b.z + a.z * b.w + a.x * b.y - a.y * b.x := rfl

theorem Unit.id : Unit Quat.id := by simp [Unit, Quat.id]

theorem Unit.conj {q : Quat} (h : Unit q) : Unit q.conj := by
  unfold Unit Quat.conj at *
  simpa using h

theorem Unit.mul {a b : Quat} (ha : Unit a) (hb : Unit b) : Unit (a * b) := by
  unfold Unit at *
  rw [mul_w, mul_x, mul_y, mul_z]
  linear_combination (b.w ^ 2 + b.x ^ 2 + b.y ^ 2 + b.z ^ 2) * ha + hb

theorem toMatrix_conj (q : Quat) : q.conj.toMatrix = q.toMatrixᵀ := by
  ext i j
  fin_cases i <;> fin_cases j <;> simp [toMatrix, conj] <;> ring

theorem toMatrix_id : Quat.id.toMatrix = 1 := by
  ext i j
  fin_cases i <;> fin_cases j <;> simp [toMatrix, Quat.id]

/-- The homogeneous form of the rotation matrix. -/
def hom (q : Quat) : Matrix (Fin 3) (Fin 3) ℝ :=
  !![q.w ^ 2 + q.x ^ 2 - q.y ^ 2 - q.z ^ 2, 2 * (q.x * q.y - q.w * q.z), 2 * (q.x * q.z + q.w * q.y);
     2 * (q.x * q.y + q.w * q.z), q.w ^ 2 - q.x ^ 2 + q.y ^ 2 - q.z ^ 2, 2 * (q.y * q.z - q.w * q.x);
     2 * (q.x * q.z - q.w * q.y), 2 * (q.y * q.z + q.w * q.x), q.w ^ 2 - q.x ^ 2 - q.y ^ 2 + q.z ^ 2]

theorem toMatrix_eq_hom {q : Quat} (h : Unit q) : q.toMatrix = q.hom := by
  unfold Unit at h
  ext i j
  fin_cases i <;> fin_cases j <;> simp [toMatrix, hom]
  · linear_combination -h
  · ring
  · ring
  · ring
  · linear_combination -h
  · ring
  · ring
  · ring
  · linear_combination -h

theorem hom_mul (a b : Quat) : (a * b).hom = a.hom * b.hom := by
  ext i j
  fin_cases i <;> fin_cases j <;> simp [hom, Matrix.mul_apply, Fin.sum_univ_three, mul_w, mul_x, mul_y, mul_z] <;> ring

theorem toMatrix_mul {a b : Quat} (ha : Unit a) (hb : Unit b) : (a * b).toMatrix = a.toMatrix * b.toMatrix := by
  rw [toMatrix_eq_hom ha, toMatrix_eq_hom hb, toMatrix_eq_hom (ha.mul hb), hom_mul]

theorem mul_conj {q : Quat} (h : Unit q) : q.conj * q = Quat.id := by
  unfold Unit at h
  ext
  · rw [mul_w]; simp only [conj, Quat.id]; linear_combination h
  · rw [mul_x]; simp only [conj, Quat.id]; ring
  · rw [mul_y]; simp only [conj, Quat.id]; ring
  · rw [mul_z]; simp only [conj, Quat.id]; ring

theorem toMatrix_orthogonal {q : Quat} (h : Unit q) : q.toMatrixᵀ * q.toMatrix = 1 := by
  rw [← toMatrix_conj, ← toMatrix_mul h.conj h, mul_conj h, toMatrix_id]

theorem toMatrix_det {q : Quat} (h : Unit q) : q.toMatrix.det = 1 := by
  have : q.toMatrix.det = (q.w ^ 2 + q.x ^ 2 + q.y ^ 2 + q.z ^ 2) ^ 3 := by
    rw [toMatrix_eq_hom h, det_fin_three]
    simp [hom]
    ring
  rw [this, h, one_pow]

theorem toMatrix_trace {q : Quat} (h : Unit q) : q.toMatrix.trace = 4 * q.w ^ 2 - 1 := by
  rw [toMatrix_eq_hom h, trace_fin_three]
  unfold Unit at h
  simp [hom]
  linear_combination -h

/-- Two quaternions of length one have the same matrix exactly if they are equal up to sign. -/
theorem toMatrix_neg (q : Quat) : (⟨-q.w, -q.x, -q.y, -q.z⟩ : Quat).toMatrix = q.toMatrix := by
  ext i j
  fin_cases i <;> fin_cases j <;> simp [toMatrix]

/-! ### From matrices -/

/-- Rotation matrices. -/
structure Rotation (R : Matrix (Fin 3) (Fin 3) ℝ) : Prop where
  orthogonal : Rᵀ * R = 1
  det : R.det = 1

/-- Coefficients of rotation matrices: lengths, products and cofactors. -/
structure Coeffs (m : Fin 3 → Fin 3 → ℝ) : Prop where
  col : ∀ i j, m 0 i * m 0 j + m 1 i * m 1 j + m 2 i * m 2 j = if i = j then 1 else 0
  row : ∀ i j, m i 0 * m j 0 + m i 1 * m j 1 + m i 2 * m j 2 = if i = j then 1 else 0
  c00 : m 1 1 * m 2 2 - m 1 2 * m 2 1 = m 0 0
  c01 : m 1 2 * m 2 0 - m 1 0 * m 2 2 = m 0 1
  c02 : m 1 0 * m 2 1 - m 1 1 * m 2 0 = m 0 2
  c10 : m 0 2 * m 2 1 - m 0 1 * m 2 2 = m 1 0
  c11 : m 0 0 * m 2 2 - m 0 2 * m 2 0 = m 1 1
  c12 : m 0 1 * m 2 0 - m 0 0 * m 2 1 = m 1 2
  c20 : m 0 1 * m 1 2 - m 0 2 * m 1 1 = m 2 0
  c21 : m 0 2 * m 1 0 - m 0 0 * m 1 2 = m 2 1
  c22 : m 0 0 * m 1 1 - m 0 1 * m 1 0 = m 2 2

theorem Rotation.coeffs {R : Matrix (Fin 3) (Fin 3) ℝ} (h : Rotation R) : Coeffs R := by
  have hr : Rigid (⟨R, 0⟩ : Iso ℝ) := ⟨h.orthogonal, h.det⟩
  have e : ∀ i j, R.adjugate i j = R j i := fun i j => by
    have := hr.adjugate
    change R.adjugate = Rᵀ at this
    rw [this, transpose_apply]
  have e0 := e 0 0; have e1 := e 0 1; have e2 := e 0 2
  have e3 := e 1 0; have e4 := e 1 1; have e5 := e 1 2
  have e6 := e 2 0; have e7 := e 2 1; have e8 := e 2 2
  rw [adjugate_fin_three] at e0 e1 e2 e3 e4 e5 e6 e7 e8
  simp at e0 e1 e2 e3 e4 e5 e6 e7 e8
  refine ⟨fun i j => ?_, fun i j => ?_, ?_, ?_, ?_, ?_, ?_, ?_, ?_, ?_, ?_⟩
  · have := congrFun (congrFun h.orthogonal i) j
    rw [Matrix.mul_apply, Fin.sum_univ_three, Matrix.one_apply] at this
    exact this
  · have := congrFun (congrFun hr.orthogonal' i) j
    rw [Matrix.mul_apply, Fin.sum_univ_three, Matrix.one_apply] at this
    exact this
  all_goals linarith

theorem toMatrix_ext {q : Quat} {m : Matrix (Fin 3) (Fin 3) ℝ}
    (h00 : 1 - 2 * (q.y ^ 2 + q.z ^ 2) = m 0 0) (h01 : 2 * (q.x * q.y - q.w * q.z) = m 0 1)
    (h02 : 2 * (q.x * q.z + q.w * q.y) = m 0 2) (h10 : 2 * (q.x * q.y + q.w * q.z) = m 1 0)
    (h11 : 1 - 2 * (q.x ^ 2 + q.z ^ 2) = m 1 1) (h12 : 2 * (q.y * q.z - q.w * q.x) = m 1 2)
    (h20 : 2 * (q.x * q.z - q.w * q.y) = m 2 0) (h21 : 2 * (q.y * q.z + q.w * q.x) = m 2 1)
    (h22 : 1 - 2 * (q.x ^ 2 + q.y ^ 2) = m 2 2) : q.toMatrix = m := by
  ext i j
  fin_cases i <;> fin_cases j <;> simp [toMatrix]
  · linear_combination h00
  · linear_combination h01
  · linear_combination h02
  · linear_combination h10
  · linear_combination h11
  · linear_combination h12
  · linear_combination h20
  · linear_combination h21
  · linear_combination h22

/-- All products of two components of `s * (w, x, y, z)` for a quaternion of a rotation matrix, as polynomials. -/
structure Products (m : Fin 3 → Fin 3 → ℝ) (q : Quat) : Prop where
  ww : 4 * q.w ^ 2 = 1 + m 0 0 + m 1 1 + m 2 2
  xx : 4 * q.x ^ 2 = 1 + m 0 0 - m 1 1 - m 2 2
  yy : 4 * q.y ^ 2 = 1 - m 0 0 + m 1 1 - m 2 2
  zz : 4 * q.z ^ 2 = 1 - m 0 0 - m 1 1 + m 2 2
  wx : 4 * (q.w * q.x) = m 2 1 - m 1 2
  wy : 4 * (q.w * q.y) = m 0 2 - m 2 0
  wz : 4 * (q.w * q.z) = m 1 0 - m 0 1
  xy : 4 * (q.x * q.y) = m 0 1 + m 1 0
  xz : 4 * (q.x * q.z) = m 0 2 + m 2 0
  yz : 4 * (q.y * q.z) = m 1 2 + m 2 1

theorem Products.unit {m : Fin 3 → Fin 3 → ℝ} {q : Quat} (h : Products m q) : Unit q := by
  unfold Unit
  linear_combination (h.ww + h.xx + h.yy + h.zz) / 4

theorem Products.matrix {m : Matrix (Fin 3) (Fin 3) ℝ} {q : Quat} (h : Products m q) : q.toMatrix = m := by
  refine toMatrix_ext ?_ ?_ ?_ ?_ ?_ ?_ ?_ ?_ ?_
  · linear_combination -(h.yy + h.zz) / 2
  · linear_combination (h.xy - h.wz) / 2
  · linear_combination (h.xz + h.wy) / 2
  · linear_combination (h.xy + h.wz) / 2
  · linear_combination -(h.xx + h.zz) / 2
  · linear_combination (h.yz - h.wx) / 2
  · linear_combination (h.xz - h.wy) / 2
  · linear_combination (h.yz + h.wx) / 2
  · linear_combination -(h.xx + h.yy) / 2

/-- The polynomial identities between the products. -/
structure Minors (m : Fin 3 → Fin 3 → ℝ) : Prop where
  wx : (m 2 1 - m 1 2) ^ 2 = (1 + m 0 0 + m 1 1 + m 2 2) * (1 + m 0 0 - m 1 1 - m 2 2)
  wy : (m 0 2 - m 2 0) ^ 2 = (1 + m 0 0 + m 1 1 + m 2 2) * (1 - m 0 0 + m 1 1 - m 2 2)
  wz : (m 1 0 - m 0 1) ^ 2 = (1 + m 0 0 + m 1 1 + m 2 2) * (1 - m 0 0 - m 1 1 + m 2 2)
  xy : (m 0 1 + m 1 0) ^ 2 = (1 + m 0 0 - m 1 1 - m 2 2) * (1 - m 0 0 + m 1 1 - m 2 2)
  xz : (m 0 2 + m 2 0) ^ 2 = (1 + m 0 0 - m 1 1 - m 2 2) * (1 - m 0 0 - m 1 1 + m 2 2)
  yz : (m 1 2 + m 2 1) ^ 2 = (1 - m 0 0 + m 1 1 - m 2 2) * (1 - m 0 0 - m 1 1 + m 2 2)
  w_xy : (m 2 1 - m 1 2) * (m 0 2 - m 2 0) = (1 + m 0 0 + m 1 1 + m 2 2) * (m 0 1 + m 1 0)
  w_xz : (m 2 1 - m 1 2) * (m 1 0 - m 0 1) = (1 + m 0 0 + m 1 1 + m 2 2) * (m 0 2 + m 2 0)
  w_yz : (m 0 2 - m 2 0) * (m 1 0 - m 0 1) = (1 + m 0 0 + m 1 1 + m 2 2) * (m 1 2 + m 2 1)
  x_wy : (m 2 1 - m 1 2) * (m 0 1 + m 1 0) = (1 + m 0 0 - m 1 1 - m 2 2) * (m 0 2 - m 2 0)
  x_wz : (m 2 1 - m 1 2) * (m 0 2 + m 2 0) = (1 + m 0 0 - m 1 1 - m 2 2) * (m 1 0 - m 0 1)
  x_yz : (m 0 1 + m 1 0) * (m 0 2 + m 2 0) = (1 + m 0 0 - m 1 1 - m 2 2) * (m 1 2 + m 2 1)
  y_wx : (m 0 2 - m 2 0) * (m 0 1 + m 1 0) = (1 - m 0 0 + m 1 1 - m 2 2) * (m 2 1 - m 1 2)
  y_wz : (m 0 2 - m 2 0) * (m 1 2 + m 2 1) = (1 - m 0 0 + m 1 1 - m 2 2) * (m 1 0 - m 0 1)
  y_xz : (m 0 1 + m 1 0) * (m 1 2 + m 2 1) = (1 - m 0 0 + m 1 1 - m 2 2) * (m 0 2 + m 2 0)
  z_wx : (m 1 0 - m 0 1) * (m 0 2 + m 2 0) = (1 - m 0 0 - m 1 1 + m 2 2) * (m 2 1 - m 1 2)
  z_wy : (m 1 0 - m 0 1) * (m 1 2 + m 2 1) = (1 - m 0 0 - m 1 1 + m 2 2) * (m 0 2 - m 2 0)
  z_xy : (m 0 2 + m 2 0) * (m 1 2 + m 2 1) = (1 - m 0 0 - m 1 1 + m 2 2) * (m 0 1 + m 1 0)

theorem Coeffs.minors {m : Fin 3 → Fin 3 → ℝ} (h : Coeffs m) : Minors m := by
  have r00 := h.row 0 0; have r11 := h.row 1 1; have r22 := h.row 2 2
  have r01 := h.row 0 1; have r02 := h.row 0 2; have r12 := h.row 1 2
  have k00 := h.col 0 0; have k11 := h.col 1 1; have k22 := h.col 2 2
  have k01 := h.col 0 1; have k02 := h.col 0 2; have k12 := h.col 1 2
  simp at r00 r11 r22 r01 r02 r12 k00 k11 k22 k01 k02 k12
  obtain ⟨_, _, c00, c01, c02, c10, c11, c12, c20, c21, c22⟩ := h
  constructor <;> linarith

/-- The four components scaled from the largest one. -/
theorem scaled {D : ℝ} (hD : 0 < D) :
    4 * (1 / 2 * Real.sqrt D) ^ 2 = D ∧
    (∀ a, 4 * (1 / 2 * Real.sqrt D * (a * (1 / 2 / Real.sqrt D))) = a) ∧
    (∀ a, 4 * (a * (1 / 2 / Real.sqrt D) * (1 / 2 * Real.sqrt D)) = a) ∧
    (∀ a b c, a * b = D * c → 4 * (a * (1 / 2 / Real.sqrt D) * (b * (1 / 2 / Real.sqrt D))) = c) ∧
    (∀ a c, a ^ 2 = D * c → 4 * (a * (1 / 2 / Real.sqrt D)) ^ 2 = c) := by
  have hs : 0 < Real.sqrt D := Real.sqrt_pos.2 hD
  have hss : Real.sqrt D ^ 2 = D := Real.sq_sqrt hD.le
  have h4 : ∀ a b c, a * b = D * c → 4 * (a * (1 / 2 / Real.sqrt D) * (b * (1 / 2 / Real.sqrt D))) = c := by
    intro a b c h
    have : 4 * (a * (1 / 2 / Real.sqrt D) * (b * (1 / 2 / Real.sqrt D))) = a * b / Real.sqrt D ^ 2 := by
      field_simp
      ring
    rw [this, hss, h]
    field_simp
  refine ⟨by rw [mul_pow, hss]; ring, fun a => by field_simp; ring, fun a => by field_simp; ring, h4,
    fun a c h => ?_⟩
  rw [sq] at h ⊢
  exact h4 a a c h

theorem ofMatrix_products {m : Matrix (Fin 3) (Fin 3) ℝ} (h : Rotation m) : Products m (ofMatrix m) := by
  obtain ⟨wx, wy, wz, xy, xz, yz, w_xy, w_xz, w_yz, x_wy, x_wz, x_yz, y_wx, y_wz, y_xz, z_wx, z_wy, z_xy⟩ :=
    h.coeffs.minors
  have caseZ : 0 < m 2 2 - m 0 0 - m 1 1 + 1 → Products m
      ⟨(m 1 0 - m 0 1) * (1 / 2 / Real.sqrt (m 2 2 - m 0 0 - m 1 1 + 1)),
       (m 0 2 + m 2 0) * (1 / 2 / Real.sqrt (m 2 2 - m 0 0 - m 1 1 + 1)),
       (m 1 2 + m 2 1) * (1 / 2 / Real.sqrt (m 2 2 - m 0 0 - m 1 1 + 1)),
       1 / 2 * Real.sqrt (m 2 2 - m 0 0 - m 1 1 + 1)⟩ := by
    intro hD
    obtain ⟨e1, e2, e3, e4, e5⟩ := scaled hD
    constructor
    · exact e5 _ _ (by linarith)
    · exact e5 _ _ (by linarith)
    · exact e5 _ _ (by linarith)
    · exact e1.trans (by ring)
    · exact e4 _ _ _ (by linarith)
    · exact e4 _ _ _ (by linarith)
    · exact e3 _
    · exact e4 _ _ _ (by linarith)
    · exact e3 _
    · exact e3 _
  unfold ofMatrix
  dsimp only
  split
  · rename_i ht
    have hD : 0 < m 0 0 + m 1 1 + m 2 2 + 1 := by linarith
    obtain ⟨e1, e2, e3, e4, e5⟩ := scaled hD
    constructor
    · exact e1.trans (by ring)
    · exact e5 _ _ (by linarith)
    · exact e5 _ _ (by linarith)
    · exact e5 _ _ (by linarith)
    · exact e2 _
    · exact e2 _
    · exact e2 _
    · exact e4 _ _ _ (by linarith)
    · exact e4 _ _ _ (by linarith)
    · exact e4 _ _ _ (by linarith)
  · rename_i ht
    rw [not_lt] at ht
    split
    · rename_i h1
      split
      · rename_i h2
        exact caseZ (by linarith)
      · rename_i h2
        rw [not_lt] at h2
        have hD : 0 < m 1 1 - m 2 2 - m 0 0 + 1 := by linarith
        obtain ⟨e1, e2, e3, e4, e5⟩ := scaled hD
        constructor
        · exact e5 _ _ (by linarith)
        · exact e5 _ _ (by linarith)
        · exact e1.trans (by ring)
        · exact e5 _ _ (by linarith)
        · exact e4 _ _ _ (by linarith)
        · exact e3 _
        · exact e4 _ _ _ (by linarith)
        · exact e3 _
        · exact e4 _ _ _ (by linarith)
        · exact (e2 _).trans (by ring)
    · rename_i h1
      rw [not_lt] at h1
      split
      · rename_i h2
        exact caseZ (by linarith)
      · rename_i h2
        rw [not_lt] at h2
        have hD : 0 < m 0 0 - m 1 1 - m 2 2 + 1 := by linarith
        obtain ⟨e1, e2, e3, e4, e5⟩ := scaled hD
        constructor
        · exact e5 _ _ (by linarith)
        · exact e1.trans (by ring)
        · exact e5 _ _ (by linarith)
        · exact e5 _ _ (by linarith)
        · exact e3 _
        · exact e4 _ _ _ (by linarith)
        · exact e4 _ _ _ (by linarith)
        · exact (e2 _).trans (by ring)
        · exact (e2 _).trans (by ring)
        · exact e4 _ _ _ (by linarith)

/-- A rotation matrix is the matrix of its quaternion. -/
theorem toMatrix_ofMatrix {m : Matrix (Fin 3) (Fin 3) ℝ} (h : Rotation m) : (ofMatrix m).toMatrix = m :=
  (ofMatrix_products h).matrix

theorem ofMatrix_unit {m : Matrix (Fin 3) (Fin 3) ℝ} (h : Rotation m) : Unit (ofMatrix m) :=
  (ofMatrix_products h).unit

theorem Unit.rotation {q : Quat} (h : Unit q) : Rotation q.toMatrix := ⟨toMatrix_orthogonal h, toMatrix_det h⟩

/-! ### Angles -/

theorem vecNorm_sq {q : Quat} : q.vecNorm ^ 2 = q.x ^ 2 + q.y ^ 2 + q.z ^ 2 := by
  unfold vecNorm
  rw [Real.sq_sqrt (by nlinarith [sq_nonneg q.x, sq_nonneg q.y, sq_nonneg q.z])]
  ring

theorem vecNorm_nonneg {q : Quat} : 0 ≤ q.vecNorm := Real.sqrt_nonneg _

/-- The angle of a quaternion of length one. -/
theorem Unit.atan2 {q : Quat} (h : Unit q) :
    0 ≤ 2 * Quat.atan2 q.vecNorm |q.w| ∧ 2 * Quat.atan2 q.vecNorm |q.w| ≤ Real.pi ∧
    Real.cos (2 * Quat.atan2 q.vecNorm |q.w|) = 1 - 2 * q.vecNorm ^ 2 ∧
    Real.sin (2 * Quat.atan2 q.vecNorm |q.w|) = 2 * q.vecNorm * |q.w| ∧
    (q.vecNorm ≠ 0 → 0 < 2 * Quat.atan2 q.vecNorm |q.w|) := by
  have hn : q.vecNorm ^ 2 + |q.w| ^ 2 = 1 := by rw [vecNorm_sq, sq_abs]; unfold Unit at h; linarith
  have hnorm : ‖(⟨|q.w|, q.vecNorm⟩ : ℂ)‖ = 1 := by
    rw [Complex.norm_def, Complex.normSq_mk, Real.sqrt_eq_one]
    linarith
  have ha : Quat.atan2 q.vecNorm |q.w| = Real.arcsin q.vecNorm := by
    unfold Quat.atan2 Complex.arg
    rw [if_pos (abs_nonneg _), hnorm, div_one]
  have h1 : q.vecNorm ≤ 1 := by nlinarith [sq_nonneg |q.w|, @vecNorm_nonneg q]
  have h0 := @vecNorm_nonneg q
  have hs : Real.sin (Real.arcsin q.vecNorm) = q.vecNorm := Real.sin_arcsin (by linarith) h1
  have hc : Real.cos (Real.arcsin q.vecNorm) = |q.w| := by
    rw [Real.cos_arcsin, show 1 - q.vecNorm ^ 2 = |q.w| ^ 2 by linarith, Real.sqrt_sq (abs_nonneg _)]
  rw [ha]
  refine ⟨by have := Real.arcsin_nonneg.2 h0; linarith, by have := Real.arcsin_le_pi_div_two q.vecNorm; linarith, ?_, ?_,
    fun hne => ?_⟩
  · rw [Real.cos_two_mul, hc]
    linarith
  · rw [Real.sin_two_mul, hs, hc]
  · have := Real.arcsin_pos.2 (lt_of_le_of_ne h0 (Ne.symm hne))
    linarith

/-- The angular distance of two quaternions is the angle of the rotation between them. -/
theorem angularDistance_eq {a b : Quat} (ha : Unit a) (hb : Unit b) :
    angularDistance a b = rotationAngle (a.toMatrix * b.toMatrixᵀ) := by
  have hd : Unit (a * b.conj) := ha.mul hb.conj
  obtain ⟨h0, h1, hc, _, _⟩ := hd.atan2
  have ht : (a.toMatrix * b.toMatrixᵀ).trace = 4 * (a * b.conj).w ^ 2 - 1 := by
    rw [← toMatrix_conj, ← toMatrix_mul ha hb.conj, toMatrix_trace hd]
  unfold angularDistance rotationAngle
  rw [ht]
  have hv := @vecNorm_sq (a * b.conj)
  rw [show (4 * (a * b.conj).w ^ 2 - 1 - 1) / 2 = Real.cos (2 * Quat.atan2 (a * b.conj).vecNorm |(a * b.conj).w|) by
    rw [hc, hv]; unfold Unit at hd; linarith, Real.arccos_cos h0 h1]

/-- Turning by the rotation vector of a quaternion is turning by the quaternion. -/
theorem expRotation_rotVec {q : Quat} (h : Unit q) : expRotation q.rotVec = q.toMatrix := by
  obtain ⟨h0, h1, hc, hs, hp⟩ := h.atan2
  have hv := @vecNorm_sq q
  unfold rotVec axis angle
  by_cases hn : q.vecNorm = 0
  · rw [if_neg (not_not.2 hn), if_neg (not_not.2 hn)]
    rw [hn] at hv
    have hx : q.x = 0 := by nlinarith [sq_nonneg q.x, sq_nonneg q.y, sq_nonneg q.z]
    have hy : q.y = 0 := by nlinarith [sq_nonneg q.x, sq_nonneg q.y, sq_nonneg q.z]
    have hz : q.z = 0 := by nlinarith [sq_nonneg q.x, sq_nonneg q.y, sq_nonneg q.z]
    unfold expRotation
    rw [if_pos (by simp)]
    symm
    ext i j
    fin_cases i <;> fin_cases j <;> simp [toMatrix, hx, hy, hz]
  · rw [if_pos hn, if_pos hn]
    set θ := 2 * Quat.atan2 q.vecNorm |q.w| with hθ
    set n := q.vecNorm with hndef
    have hθp := hp hn
    obtain ⟨σ, hσ, hσw, hn'⟩ : ∃ σ : ℝ, σ * σ = 1 ∧ σ * |q.w| = q.w ∧ (if q.w < 0 then -n else n) = σ * n := by
      by_cases hw : q.w < 0
      · exact ⟨-1, by norm_num, by rw [abs_of_neg hw]; ring, by rw [if_pos hw]; ring⟩
      · exact ⟨1, by norm_num, by rw [abs_of_nonneg (not_lt.1 hw)]; ring, by rw [if_neg hw]; ring⟩
    have hσ0 : σ ≠ 0 := fun c => by rw [c] at hσ; norm_num at hσ
    rw [hn']
    have hu : (q.x / (σ * n)) ^ 2 + (q.y / (σ * n)) ^ 2 + (q.z / (σ * n)) ^ 2 = 1 := by
      have : (σ * n) ^ 2 = n ^ 2 := by rw [mul_pow, sq σ, hσ, one_mul]
      rw [div_pow, div_pow, div_pow, this, ← add_div, ← add_div, ← hv]
      exact div_self (pow_ne_zero 2 hn)
    have hlen : Real.sqrt (∑ i, (![q.x / (σ * n), q.y / (σ * n), q.z / (σ * n)] i * θ) ^ 2) = θ := by
      rw [Fin.sum_univ_three]
      simp only [mul_pow, ← add_mul]
      rw [show (![q.x / (σ * n), q.y / (σ * n), q.z / (σ * n)] 0 ^ 2 + ![q.x / (σ * n), q.y / (σ * n), q.z / (σ * n)] 1 ^ 2 +
        ![q.x / (σ * n), q.y / (σ * n), q.z / (σ * n)] 2 ^ 2) = 1 from hu, one_mul, Real.sqrt_sq h0]
    unfold expRotation
    rw [hlen, if_neg hθp.ne']
    have haxis : (fun i => ![q.x / (σ * n), q.y / (σ * n), q.z / (σ * n)] i * θ / θ) =
        ![q.x / (σ * n), q.y / (σ * n), q.z / (σ * n)] := by
      funext i
      rw [mul_div_cancel_right₀ _ hθp.ne']
    rw [haxis]
    unfold rodrigues
    rw [hs, hc]
    have e1 : ∀ v : ℝ, 2 * n * |q.w| * (v / (σ * n)) = 2 * v * q.w := by
      intro v
      have : |q.w| = σ * q.w := by linear_combination -|q.w| * hσ + σ * hσw
      rw [this]
      field_simp
    have e2 : ∀ u v : ℝ, 2 * n ^ 2 * (u / (σ * n) * (v / (σ * n))) = 2 * u * v := by
      intro u v
      have : u / (σ * n) * (v / (σ * n)) = u * v / n ^ 2 := by
        rw [div_mul_div_comm]
        congr 1
        linear_combination n ^ 2 * hσ
      rw [this]
      field_simp
    have e3 : 1 - (1 - 2 * n ^ 2) = 2 * n ^ 2 := by ring
    rw [e3]
    ext i j
    have ex := e1 q.x; have ey := e1 q.y; have ez := e1 q.z
    have exx := e2 q.x q.x; have exy := e2 q.x q.y; have exz := e2 q.x q.z
    have eyy := e2 q.y q.y; have eyz := e2 q.y q.z; have ezz := e2 q.z q.z
    fin_cases i <;> fin_cases j <;> simp [toMatrix, skewOf]
    all_goals linarith

theorem Unit.angle_bounds {q : Quat} (h : Unit q) : 0 ≤ q.angle ∧ q.angle ≤ Real.pi := by
  obtain ⟨h0, h1, _⟩ := h.atan2
  unfold angle
  split
  · exact ⟨h0, h1⟩
  · exact ⟨le_rfl, Real.pi_pos.le⟩

theorem axis_sq (q : Quat) : ∑ i, q.axis i ^ 2 = 1 := by
  unfold axis
  split
  · rename_i hn
    have hv := @vecNorm_sq q
    have : ((if q.w < 0 then -q.vecNorm else q.vecNorm)) ^ 2 = q.vecNorm ^ 2 := by split <;> ring
    rw [Fin.sum_univ_three]
    change (q.x / _) ^ 2 + (q.y / _) ^ 2 + (q.z / _) ^ 2 = 1
    rw [div_pow, div_pow, div_pow, this, ← add_div, ← add_div, ← hv]
    exact div_self (pow_ne_zero 2 hn)
  · rw [Fin.sum_univ_three]
    simp

end Quat

theorem rotVecOfMatrix_spec {R : Matrix (Fin 3) (Fin 3) ℝ} (h : Quat.Rotation R) :
    expRotation (rotVecOfMatrix R) = R := by
  unfold rotVecOfMatrix
  rw [Quat.expRotation_rotVec (Quat.ofMatrix_unit h), Quat.toMatrix_ofMatrix h]

end EigenExt

end Serpent
