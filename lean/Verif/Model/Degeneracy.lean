import Mathlib.LinearAlgebra.CrossProduct
import Mathlib.LinearAlgebra.Matrix.Notation
import Mathlib.Data.Matrix.Block
import Mathlib.Analysis.SpecialFunctions.Trigonometric.Basic
import Mathlib.Analysis.SpecialFunctions.Sqrt

/-!
# Model of the script that derives the matrices of the ICP models

degeneracy_analysis/degeneracy_analysis.m and skew.m. The script defines residuals, has Matlab differentiate them, and holds formulas
that were derived by hand. Modelled: the residuals, the rotations and all formulas derived by hand. Not modelled: the symbolic
derivatives (they are derivatives by definition), simplification, the text files, and the numbers for the tests.
-/

namespace Serpent

namespace Degeneracy

open Matrix

/-- `skew`, skew.m:1-6. -/
def skew (v : Fin 3 → ℝ) : Matrix (Fin 3) (Fin 3) ℝ := !![0, -v 2, v 1; v 2, 0, -v 0; -v 1, v 0, 0]

/-- `r_skew`, degeneracy_analysis.m:11. -/
def rSkew (r : Fin 3 → ℝ) : Matrix (Fin 3) (Fin 3) ℝ := !![0, -r 2, r 1; r 2, 0, -r 0; -r 1, r 0, 0]

/-- `R_lin`, degeneracy_analysis.m:40-42. -/
def rLin (r : Fin 3 → ℝ) : Matrix (Fin 3) (Fin 3) ℝ := !![1, -r 2, r 1; r 2, 1, -r 0; -r 1, r 0, 1]

/-- `[R, t; 0 0 0 1]`, degeneracy_analysis.m:45 and 155. -/
def transform (R : Matrix (Fin 3) (Fin 3) ℝ) (t : Fin 3 → ℝ) : Matrix (Fin 3 ⊕ Fin 1) (Fin 3 ⊕ Fin 1) ℝ :=
  fromBlocks R (replicateCol (Fin 1) t) 0 1

/-- `[v; 1]`. In degeneracy_analysis.m:177 and 224. -/
def homogeneous (v : Fin 3 → ℝ) : Fin 3 ⊕ Fin 1 → ℝ := Sum.elim v 1

/-- `f_lin` and `f`, degeneracy_analysis.m:48 and 158. -/
def residual (R : Matrix (Fin 3) (Fin 3) ℝ) (t p q : Fin 3 → ℝ) : Fin 3 → ℝ := R *ᵥ p + t - q

/-- `f_alt`, degeneracy_analysis.m:177. -/
def residualAlt (R : Matrix (Fin 3) (Fin 3) ℝ) (t p q : Fin 3 → ℝ) : Fin 3 ⊕ Fin 1 → ℝ :=
  transform R t *ᵥ homogeneous p - homogeneous q

/-- `h_lin` and `h`, degeneracy_analysis.m:88 and 205. -/
def planeResidual (R : Matrix (Fin 3) (Fin 3) ℝ) (t p q n : Fin 3 → ℝ) : ℝ := (R *ᵥ p + t - q) ⬝ᵥ n

/-- `h_alt`, degeneracy_analysis.m:224. -/
def planeResidualAlt (R : Matrix (Fin 3) (Fin 3) ℝ) (t p q n : Fin 3 → ℝ) : ℝ :=
  (transform R t *ᵥ homogeneous p - homogeneous q) ⬝ᵥ homogeneous n

/-- `d2F_dzdx_lin_hand`, degeneracy_analysis.m:81. -/
def pointHand (r t p q : Fin 3 → ℝ) : Matrix (Fin 3 ⊕ Fin 3) (Fin 3 ⊕ Fin 3) ℝ :=
  (2 : ℝ) • fromBlocks (skew p * rSkew r + skew (crossProduct p r - t + q)) (-skew p) (rSkew r + 1) (-1)

/-- `d2F_dzdx_lin_hand_alt1`, degeneracy_analysis.m:82. -/
def pointHandAlt1 (r t p q : Fin 3 → ℝ) : Matrix (Fin 3 ⊕ Fin 3) (Fin 3 ⊕ Fin 3) ℝ :=
  (2 : ℝ) • fromBlocks (skew p * rSkew r + skew (crossProduct p r) - skew t + skew q) (-skew p) (rSkew r + 1) (-1)

/-- `extra_1`, degeneracy_analysis.m:83. -/
def extra1 (r p : Fin 3 → ℝ) : Matrix (Fin 3) (Fin 3) ℝ :=
  !![0, -p 0 * r 1, p 2 * r 0; p 0 * r 1, 0, -p 1 * r 2; -p 2 * r 0, p 1 * r 2, 0]

/-- `extra_2`, degeneracy_analysis.m:84. -/
def extra2 (r p : Fin 3 → ℝ) : Matrix (Fin 3) (Fin 3) ℝ :=
  !![0, -p 1 * r 0, p 0 * r 2; p 1 * r 0, 0, -p 2 * r 1; -p 0 * r 2, p 2 * r 1, 0]

/-- `d2F_dzdx_lin_hand_alt2`, degeneracy_analysis.m:85. -/
def pointHandAlt2 (r t p q : Fin 3 → ℝ) : Matrix (Fin 3 ⊕ Fin 3) (Fin 3 ⊕ Fin 3) ℝ :=
  (2 : ℝ) • fromBlocks (skew p * rSkew r + extra1 r p - extra2 r p - skew t + skew q) (-skew p) (rSkew r + 1) (-1)

/-- `A`, degeneracy_analysis.m:120: one row. -/
def rowA (p n : Fin 3 → ℝ) : Matrix (Fin 1) (Fin 3 ⊕ Fin 3) ℝ := replicateRow (Fin 1) (Sum.elim (crossProduct p n) n)

/-- `d2H_dx2_lin_hand`, degeneracy_analysis.m:122. -/
def planeHandDx2 (p n : Fin 3 → ℝ) : Matrix (Fin 3 ⊕ Fin 3) (Fin 3 ⊕ Fin 3) ℝ := (2 : ℝ) • ((rowA p n)ᵀ * rowA p n)

/-- `d2H_dx2_lin_hand_alt`, degeneracy_analysis.m:123-124. -/
def planeHandDx2Alt (p n : Fin 3 → ℝ) : Matrix (Fin 3 ⊕ Fin 3) (Fin 3 ⊕ Fin 3) ℝ :=
  (2 : ℝ) • fromBlocks (vecMulVec (crossProduct p n) (crossProduct p n)) (vecMulVec (crossProduct p n) n)
    (vecMulVec n (crossProduct p n)) (vecMulVec n n)

/-- `dATAx_dz`, degeneracy_analysis.m:125-127. -/
def dATAx (r t p n : Fin 3 → ℝ) : Matrix (Fin 3 ⊕ Fin 3) (Fin 3 ⊕ Fin 3) ℝ :=
  fromBlocks (-((crossProduct p n ⬝ᵥ r) • skew n) - vecMulVec (crossProduct p n) r * skew n - (n ⬝ᵥ t) • skew n) 0
    (vecMulVec n (crossProduct n r)) 0

/-- `dATb_dz`, degeneracy_analysis.m:128-130. -/
def dATb (p q n : Fin 3 → ℝ) : Matrix (Fin 3 ⊕ Fin 3) (Fin 3 ⊕ Fin 3) ℝ :=
  fromBlocks (-((n ⬝ᵥ q) • skew n) + skew n * (vecMulVec p n + (n ⬝ᵥ p) • 1)) (vecMulVec (crossProduct p n) n)
    (-vecMulVec n n) (vecMulVec n n)

/-- `d2H_dzdx_lin_hand`, degeneracy_analysis.m:131. -/
def planeHand (r t p q n : Fin 3 → ℝ) : Matrix (Fin 3 ⊕ Fin 3) (Fin 3 ⊕ Fin 3) ℝ := (2 : ℝ) • (dATAx r t p n - dATb p q n)

/-- `d2H_dzdx_lin_hand_alt`, degeneracy_analysis.m:132-133. -/
def planeHandAlt (r t p q n : Fin 3 → ℝ) : Matrix (Fin 3 ⊕ Fin 3) (Fin 3 ⊕ Fin 3) ℝ :=
  (2 : ℝ) • fromBlocks
    ((n ⬝ᵥ (q - p - t) - crossProduct p n ⬝ᵥ r) • skew n + vecMulVec (crossProduct p n) (crossProduct n r + n))
    (-vecMulVec (crossProduct p n) n) (vecMulVec n (crossProduct n r + n)) (-vecMulVec n n)

/-- `ang`, degeneracy_analysis.m:138. -/
noncomputable def ang (r : Fin 3 → ℝ) : ℝ := Real.sqrt (r 0 ^ 2 + r 1 ^ 2 + r 2 ^ 2)

/-- `u`, degeneracy_analysis.m:141. -/
noncomputable def axis (r : Fin 3 → ℝ) : Fin 3 → ℝ := fun i => r i / ang r

/-- `R`, degeneracy_analysis.m:147-149, with `u`, `cosa` and `sina`. -/
def rotation (u : Fin 3 → ℝ) (c s : ℝ) : Matrix (Fin 3) (Fin 3) ℝ :=
  !![c + u 0 ^ 2 * (1 - c), u 0 * u 1 * (1 - c) - u 2 * s, u 0 * u 2 * (1 - c) + u 1 * s;
     u 1 * u 0 * (1 - c) + u 2 * s, c + u 1 ^ 2 * (1 - c), u 1 * u 2 * (1 - c) - u 0 * s;
     u 2 * u 0 * (1 - c) - u 1 * s, u 2 * u 1 * (1 - c) + u 0 * s, c + u 2 ^ 2 * (1 - c)]

/-- `R_alt`, degeneracy_analysis.m:150. -/
def rotationAlt (u : Fin 3 → ℝ) (c s : ℝ) : Matrix (Fin 3) (Fin 3) ℝ :=
  c • (1 : Matrix (Fin 3) (Fin 3) ℝ) + s • !![0, -u 2, u 1; u 2, 0, -u 0; -u 1, u 0, 0] + (1 - c) • vecMulVec u u

/-- `R_alt2`, degeneracy_analysis.m:151-152. -/
def rotationAlt2 (u : Fin 3 → ℝ) (c s : ℝ) : Matrix (Fin 3) (Fin 3) ℝ :=
  let K : Matrix (Fin 3) (Fin 3) ℝ := !![0, -u 2, u 1; u 2, 0, -u 0; -u 1, u 0, 0]
  1 + s • K + (1 - c) • K * K

end Degeneracy

end Serpent
