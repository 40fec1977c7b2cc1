import Verif.Model.IcpEnv
import Mathlib.Tactic.FieldSimp
import Mathlib.Tactic.Ring
import Mathlib.Tactic.FinCases
import Mathlib.Algebra.BigOperators.Fin

/-!
# A rotation as a function of the rotation vector, and its derivatives

`R = f I + g [r] + h r rᵀ`, where `f`, `g` and `h` are functions of the length of `r`. The coefficients `g1`, `h1`, `g2` and `h2`
arise from `g` and `h` by taking derivatives.
-/

namespace Serpent

namespace Icp

open Matrix EigenExt Lidar

/-- The coefficients. -/
structure Coefs where
  f : ℝ
  g : ℝ
  h : ℝ
  g1 : ℝ
  h1 : ℝ
  g2 : ℝ
  h2 : ℝ

/-- The coefficients for the angle `a`, with its cosine and sine. -/
noncomputable def coefs (a ca sa : ℝ) : Coefs where
  f := ca
  g := sa / a
  h := (1 - ca) / a ^ 2
  g1 := (a * ca - sa) / a ^ 3
  h1 := (a * sa - 2 * (1 - ca)) / a ^ 4
  g2 := (-a ^ 2 * sa - 3 * a * ca + 3 * sa) / a ^ 5
  h2 := (a ^ 2 * ca - 5 * a * sa + 8 * (1 - ca)) / a ^ 6

/-- One if equal, otherwise zero. -/
def dl (i j : Fin 3) : ℝ := if i = j then 1 else 0

/-- The entries of `[r]`. -/
def sk (r : Fin 3 → ℝ) (k j : Fin 3) : ℝ := skewSymmetric r k j

/-- The basis vectors. -/
def bs (i : Fin 3) : Fin 3 → ℝ := fun k => dl i k

/-- The entries of the rotation. -/
def rotE (c : Coefs) (r : Fin 3 → ℝ) (k j : Fin 3) : ℝ := c.f * dl k j + c.g * sk r k j + c.h * (r k * r j)

/-- Their derivatives by `r i`. -/
def dRotE (c : Coefs) (r : Fin 3 → ℝ) (i k j : Fin 3) : ℝ :=
  -(c.g * r i) * dl k j + (c.g1 * r i * sk r k j + c.g * sk (bs i) k j) +
    (c.h1 * r i * (r k * r j) + c.h * (dl i k * r j + r k * dl i j))

/-- Their second derivatives by `r i` and `r j`. -/
def ddRotE (c : Coefs) (r : Fin 3 → ℝ) (i j k l : Fin 3) : ℝ :=
  -(c.g1 * r i * r j + c.g * dl i j) * dl k l +
    ((c.g2 * r i * r j + c.g1 * dl i j) * sk r k l + c.g1 * r j * sk (bs i) k l + c.g1 * r i * sk (bs j) k l) +
    ((c.h2 * r i * r j + c.h1 * dl i j) * (r k * r l) + c.h1 * r j * (dl i k * r l + r k * dl i l) +
      (c.h1 * r i * (dl j k * r l + r k * dl j l) + c.h * (dl j k * dl i l + dl i k * dl j l)))

section
variable (e : Env)

/-- The vectors and coefficients of the named values. -/
def rv : Fin 3 → ℝ := ![e.rx, e.ry, e.rz]
/-- Translation. -/
def tv : Fin 3 → ℝ := ![e.tx, e.ty, e.tz]
/-- Source point. -/
def pv : Fin 3 → ℝ := ![e.px, e.py, e.pz]
/-- Target point. -/
def qv : Fin 3 → ℝ := ![e.qx, e.qy, e.qz]
/-- Normal. -/
def nv : Fin 3 → ℝ := ![e.nx, e.ny, e.nz]
/-- Coefficients. -/
noncomputable def cf : Coefs := coefs e.a e.ca e.sa

/-- The rotation. -/
noncomputable def R (k j : Fin 3) : ℝ := rotE (cf e) (rv e) k j
/-- Its derivatives. -/
noncomputable def dR (i k j : Fin 3) : ℝ := dRotE (cf e) (rv e) i k j
/-- The residual. -/
noncomputable def E (k : Fin 3) : ℝ := ∑ j, R e k j * pv e j + tv e k - qv e k
/-- Its derivatives by the rotation vector. -/
noncomputable def dE (i k : Fin 3) : ℝ := ∑ j, dR e i k j * pv e j
/-- Its second derivatives by the rotation vector. -/
noncomputable def ddE (i j k : Fin 3) : ℝ := ∑ l, ddRotE (cf e) (rv e) i j k l * pv e l
/-- The residual along the normal. -/
noncomputable def nE : ℝ := ∑ k, nv e k * E e k
/-- Its derivatives by the rotation vector. -/
noncomputable def ndE (i : Fin 3) : ℝ := ∑ k, nv e k * dE e i k
/-- Its second derivatives by the rotation vector. -/
noncomputable def nddE (i j : Fin 3) : ℝ := ∑ k, nv e k * ddE e i j k
/-- Its derivatives by the source point. -/
noncomputable def nR (j : Fin 3) : ℝ := ∑ k, nv e k * R e k j
/-- Its derivatives by the source point and the rotation vector. -/
noncomputable def ndR (i j : Fin 3) : ℝ := ∑ k, nv e k * dR e i k j

end

theorem ddRotE_comm (c : Coefs) (r : Fin 3 → ℝ) (i j k l : Fin 3) : ddRotE c r i j k l = ddRotE c r j i k l := by
  have h : dl i j = dl j i := by unfold dl; simp only [eq_comm]
  unfold ddRotE
  rw [h]
  ring

theorem ddE_comm (e : Env) (i j k : Fin 3) : ddE e i j k = ddE e j i k := by
  unfold ddE
  exact Finset.sum_congr rfl fun l _ => by rw [ddRotE_comm]

theorem nddE_comm (e : Env) (i j : Fin 3) : nddE e i j = nddE e j i := by
  unfold nddE
  exact Finset.sum_congr rfl fun l _ => by rw [ddE_comm]

theorem dl_same (i : Fin 3) : dl i i = 1 := if_pos rfl
theorem dl01 : dl 0 1 = 0 := rfl
theorem dl02 : dl 0 2 = 0 := rfl
theorem dl10 : dl 1 0 = 0 := rfl
theorem dl12 : dl 1 2 = 0 := rfl
theorem dl20 : dl 2 0 = 0 := rfl
theorem dl21 : dl 2 1 = 0 := rfl

theorem sk00 (r : Fin 3 → ℝ) : sk r 0 0 = 0 := by simp [sk, skewSymmetric]
theorem sk01 (r : Fin 3 → ℝ) : sk r 0 1 = -r 2 := by simp [sk, skewSymmetric]
theorem sk02 (r : Fin 3 → ℝ) : sk r 0 2 = r 1 := by simp [sk, skewSymmetric]
theorem sk10 (r : Fin 3 → ℝ) : sk r 1 0 = r 2 := by simp [sk, skewSymmetric]
theorem sk11 (r : Fin 3 → ℝ) : sk r 1 1 = 0 := by simp [sk, skewSymmetric]
theorem sk12 (r : Fin 3 → ℝ) : sk r 1 2 = -r 0 := by simp [sk, skewSymmetric]
theorem sk20 (r : Fin 3 → ℝ) : sk r 2 0 = -r 1 := by simp [sk, skewSymmetric]
theorem sk21 (r : Fin 3 → ℝ) : sk r 2 1 = r 0 := by simp [sk, skewSymmetric]
theorem sk22 (r : Fin 3 → ℝ) : sk r 2 2 = 0 := by simp [sk, skewSymmetric]

theorem rv0 (e : Env) : rv e 0 = e.rx := rfl
theorem rv1 (e : Env) : rv e 1 = e.ry := rfl
theorem rv2 (e : Env) : rv e 2 = e.rz := rfl
theorem tv0 (e : Env) : tv e 0 = e.tx := rfl
theorem tv1 (e : Env) : tv e 1 = e.ty := rfl
theorem tv2 (e : Env) : tv e 2 = e.tz := rfl
theorem pv0 (e : Env) : pv e 0 = e.px := rfl
theorem pv1 (e : Env) : pv e 1 = e.py := rfl
theorem pv2 (e : Env) : pv e 2 = e.pz := rfl
theorem qv0 (e : Env) : qv e 0 = e.qx := rfl
theorem qv1 (e : Env) : qv e 1 = e.qy := rfl
theorem qv2 (e : Env) : qv e 2 = e.qz := rfl
theorem nv0 (e : Env) : nv e 0 = e.nx := rfl
theorem nv1 (e : Env) : nv e 1 = e.ny := rfl
theorem nv2 (e : Env) : nv e 2 = e.nz := rfl

end Icp

end Serpent
