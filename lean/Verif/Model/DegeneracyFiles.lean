import Verif.Model.RegistrationCovariance

/-!
# Model of the files that degeneracy_analysis.m writes for the linearised models

degeneracy_analysis/point_to_point_linear.txt and point_to_plane_linear.txt, one matrix for each name; the entries as they are in the
files, with `p 0` for `px`, and so on.
-/

namespace Serpent

namespace Degeneracy

namespace Files

/-- Rows and columns of the files: 0 to 2 are the rotation (or the source point), 3 to 5 the translation (or the target point). -/
def position : Fin 3 ⊕ Fin 3 → Fin 6 := Sum.elim ![0, 1, 2] ![3, 4, 5]

/-- `d2F_dx2`, degeneracy_analysis/point_to_point_linear.txt:1-36. -/
noncomputable def fullPointDx2 (p : Fin 3 → ℝ) : Matrix (Fin 6) (Fin 6) ℝ := !![
    2 * p 1 ^ 2 + 2 * p 2 ^ 2, -2 * p 0 * p 1, -2 * p 0 * p 2, 0, -2 * p 2, 2 * p 1;
    -2 * p 0 * p 1, 2 * p 0 ^ 2 + 2 * p 2 ^ 2, -2 * p 1 * p 2, 2 * p 2, 0, -2 * p 0;
    -2 * p 0 * p 2, -2 * p 1 * p 2, 2 * p 0 ^ 2 + 2 * p 1 ^ 2, -2 * p 1, 2 * p 0, 0;
    0, 2 * p 2, -2 * p 1, 2, 0, 0;
    -2 * p 2, 0, 2 * p 0, 0, 2, 0;
    2 * p 1, -2 * p 0, 0, 0, 0, 2]

/-- `d2F_dzdx`, degeneracy_analysis/point_to_point_linear.txt:37-72. -/
noncomputable def fullPointDzdx (r t p q : Fin 3 → ℝ) : Matrix (Fin 6) (Fin 6) ℝ := !![
    -2 * p 1 * r 1 - 2 * p 2 * r 2,
    2 * t 2 - 2 * q 2 - 2 * p 0 * r 1 + 4 * p 1 * r 0,
    2 * q 1 - 2 * t 1 - 2 * p 0 * r 2 + 4 * p 2 * r 0,
    0,
    2 * p 2,
    -2 * p 1;
    2 * q 2 - 2 * t 2 + 4 * p 0 * r 1 - 2 * p 1 * r 0,
    -2 * p 0 * r 0 - 2 * p 2 * r 2,
    2 * t 0 - 2 * q 0 - 2 * p 1 * r 2 + 4 * p 2 * r 1,
    -2 * p 2,
    0,
    2 * p 0;
    2 * t 1 - 2 * q 1 + 4 * p 0 * r 2 - 2 * p 2 * r 0,
    2 * q 0 - 2 * t 0 + 4 * p 1 * r 2 - 2 * p 2 * r 1,
    -2 * p 0 * r 0 - 2 * p 1 * r 1,
    2 * p 1,
    -2 * p 0,
    0;
    2,
    -2 * r 2,
    2 * r 1,
    -2,
    0,
    0;
    2 * r 2,
    2,
    -2 * r 0,
    0,
    -2,
    0;
    -2 * r 1,
    2 * r 0,
    2,
    0,
    0,
    -2]

/-- `half_d2F_dx2`, degeneracy_analysis/point_to_point_linear.txt:73-108. -/
noncomputable def halfPointDx2 (p : Fin 3 → ℝ) : Matrix (Fin 6) (Fin 6) ℝ := !![
    p 1 ^ 2 + p 2 ^ 2, -p 0 * p 1, -p 0 * p 2, 0, -p 2, p 1;
    -p 0 * p 1, p 0 ^ 2 + p 2 ^ 2, -p 1 * p 2, p 2, 0, -p 0;
    -p 0 * p 2, -p 1 * p 2, p 0 ^ 2 + p 1 ^ 2, -p 1, p 0, 0;
    0, p 2, -p 1, 1, 0, 0;
    -p 2, 0, p 0, 0, 1, 0;
    p 1, -p 0, 0, 0, 0, 1]

/-- `half_d2F_dzdx`, degeneracy_analysis/point_to_point_linear.txt:109-144. -/
noncomputable def halfPointDzdx (r t p q : Fin 3 → ℝ) : Matrix (Fin 6) (Fin 6) ℝ := !![
    -p 1 * r 1 - p 2 * r 2,
    t 2 - q 2 - p 0 * r 1 + 2 * p 1 * r 0,
    q 1 - t 1 - p 0 * r 2 + 2 * p 2 * r 0,
    0,
    p 2,
    -p 1;
    q 2 - t 2 + 2 * p 0 * r 1 - p 1 * r 0,
    -p 0 * r 0 - p 2 * r 2,
    t 0 - q 0 - p 1 * r 2 + 2 * p 2 * r 1,
    -p 2,
    0,
    p 0;
    t 1 - q 1 + 2 * p 0 * r 2 - p 2 * r 0,
    q 0 - t 0 + 2 * p 1 * r 2 - p 2 * r 1,
    -p 0 * r 0 - p 1 * r 1,
    p 1,
    -p 0,
    0;
    1,
    -r 2,
    r 1,
    -1,
    0,
    0;
    r 2,
    1,
    -r 0,
    0,
    -1,
    0;
    -r 1,
    r 0,
    1,
    0,
    0,
    -1]

/-- `d2H_dx2`, degeneracy_analysis/point_to_plane_linear.txt:1-36. -/
noncomputable def fullPlaneDx2 (p n : Fin 3 → ℝ) : Matrix (Fin 6) (Fin 6) ℝ := !![
    (n 1 * p 2 - n 2 * p 1) * (2 * n 1 * p 2 - 2 * n 2 * p 1),
    -(n 0 * p 2 - n 2 * p 0) * (2 * n 1 * p 2 - 2 * n 2 * p 1),
    (n 0 * p 1 - n 1 * p 0) * (2 * n 1 * p 2 - 2 * n 2 * p 1),
    -2 * n 0 * (n 1 * p 2 - n 2 * p 1),
    2 * n 1 * n 2 * p 1 - 2 * n 1 ^ 2 * p 2,
    2 * n 2 ^ 2 * p 1 - 2 * n 1 * n 2 * p 2;
    -(2 * n 0 * p 2 - 2 * n 2 * p 0) * (n 1 * p 2 - n 2 * p 1),
    (n 0 * p 2 - n 2 * p 0) * (2 * n 0 * p 2 - 2 * n 2 * p 0),
    -(n 0 * p 1 - n 1 * p 0) * (2 * n 0 * p 2 - 2 * n 2 * p 0),
    n 0 * (2 * n 0 * p 2 - 2 * n 2 * p 0),
    n 1 * (2 * n 0 * p 2 - 2 * n 2 * p 0),
    n 2 * (2 * n 0 * p 2 - 2 * n 2 * p 0);
    (2 * n 0 * p 1 - 2 * n 1 * p 0) * (n 1 * p 2 - n 2 * p 1),
    -(2 * n 0 * p 1 - 2 * n 1 * p 0) * (n 0 * p 2 - n 2 * p 0),
    (n 0 * p 1 - n 1 * p 0) * (2 * n 0 * p 1 - 2 * n 1 * p 0),
    2 * n 0 * n 1 * p 0 - 2 * n 0 ^ 2 * p 1,
    2 * n 1 ^ 2 * p 0 - 2 * n 0 * n 1 * p 1,
    -2 * n 2 * (n 0 * p 1 - n 1 * p 0);
    -2 * n 0 * (n 1 * p 2 - n 2 * p 1),
    2 * n 0 * (n 0 * p 2 - n 2 * p 0),
    -2 * n 0 * (n 0 * p 1 - n 1 * p 0),
    2 * n 0 ^ 2,
    2 * n 0 * n 1,
    2 * n 0 * n 2;
    -2 * n 1 * (n 1 * p 2 - n 2 * p 1),
    2 * n 1 * (n 0 * p 2 - n 2 * p 0),
    -2 * n 1 * (n 0 * p 1 - n 1 * p 0),
    2 * n 0 * n 1,
    2 * n 1 ^ 2,
    2 * n 1 * n 2;
    -2 * n 2 * (n 1 * p 2 - n 2 * p 1),
    2 * n 2 * (n 0 * p 2 - n 2 * p 0),
    -2 * n 2 * (n 0 * p 1 - n 1 * p 0),
    2 * n 0 * n 2,
    2 * n 1 * n 2,
    2 * n 2 ^ 2]

/-- `d2H_dzdx`, degeneracy_analysis/point_to_plane_linear.txt:37-72. -/
noncomputable def fullPlaneDzdx (r t p q n : Fin 3 → ℝ) : Matrix (Fin 6) (Fin 6) ℝ := !![
    -(2 * n 1 * p 2 - 2 * n 2 * p 1) * (n 0 + n 1 * r 2 - n 2 * r 1),
    2 * n 2 * (n 0 * (p 0 - q 0 + t 0 - p 1 * r 2 + p 2 * r 1) + n 1 * (p 1 - q 1 + t 1 + p 0 * r 2 - p 2 * r 0) + n 2 * (p 2 - q 2 + t 2 - p 0 * r 1 + p 1 * r 0)) - (2 * n 1 * p 2 - 2 * n 2 * p 1) * (n 1 - n 0 * r 2 + n 2 * r 0),
    -2 * n 1 * (n 0 * (p 0 - q 0 + t 0 - p 1 * r 2 + p 2 * r 1) + n 1 * (p 1 - q 1 + t 1 + p 0 * r 2 - p 2 * r 0) + n 2 * (p 2 - q 2 + t 2 - p 0 * r 1 + p 1 * r 0)) - (2 * n 1 * p 2 - 2 * n 2 * p 1) * (n 2 + n 0 * r 1 - n 1 * r 0),
    n 0 * (2 * n 1 * p 2 - 2 * n 2 * p 1),
    n 1 * (2 * n 1 * p 2 - 2 * n 2 * p 1),
    n 2 * (2 * n 1 * p 2 - 2 * n 2 * p 1);
    (2 * n 0 * p 2 - 2 * n 2 * p 0) * (n 0 + n 1 * r 2 - n 2 * r 1) - 2 * n 2 * (n 0 * (p 0 - q 0 + t 0 - p 1 * r 2 + p 2 * r 1) + n 1 * (p 1 - q 1 + t 1 + p 0 * r 2 - p 2 * r 0) + n 2 * (p 2 - q 2 + t 2 - p 0 * r 1 + p 1 * r 0)),
    (2 * n 0 * p 2 - 2 * n 2 * p 0) * (n 1 - n 0 * r 2 + n 2 * r 0),
    2 * n 0 * (n 0 * (p 0 - q 0 + t 0 - p 1 * r 2 + p 2 * r 1) + n 1 * (p 1 - q 1 + t 1 + p 0 * r 2 - p 2 * r 0) + n 2 * (p 2 - q 2 + t 2 - p 0 * r 1 + p 1 * r 0)) + (2 * n 0 * p 2 - 2 * n 2 * p 0) * (n 2 + n 0 * r 1 - n 1 * r 0),
    2 * n 0 * n 2 * p 0 - 2 * n 0 ^ 2 * p 2,
    -2 * n 1 * (n 0 * p 2 - n 2 * p 0),
    2 * n 2 ^ 2 * p 0 - 2 * n 0 * n 2 * p 2;
    2 * n 1 * (n 0 * (p 0 - q 0 + t 0 - p 1 * r 2 + p 2 * r 1) + n 1 * (p 1 - q 1 + t 1 + p 0 * r 2 - p 2 * r 0) + n 2 * (p 2 - q 2 + t 2 - p 0 * r 1 + p 1 * r 0)) - (2 * n 0 * p 1 - 2 * n 1 * p 0) * (n 0 + n 1 * r 2 - n 2 * r 1),
    -2 * n 0 * (n 0 * (p 0 - q 0 + t 0 - p 1 * r 2 + p 2 * r 1) + n 1 * (p 1 - q 1 + t 1 + p 0 * r 2 - p 2 * r 0) + n 2 * (p 2 - q 2 + t 2 - p 0 * r 1 + p 1 * r 0)) - (2 * n 0 * p 1 - 2 * n 1 * p 0) * (n 1 - n 0 * r 2 + n 2 * r 0),
    -(2 * n 0 * p 1 - 2 * n 1 * p 0) * (n 2 + n 0 * r 1 - n 1 * r 0),
    n 0 * (2 * n 0 * p 1 - 2 * n 1 * p 0),
    n 1 * (2 * n 0 * p 1 - 2 * n 1 * p 0),
    n 2 * (2 * n 0 * p 1 - 2 * n 1 * p 0);
    2 * n 0 * (n 0 + n 1 * r 2 - n 2 * r 1),
    2 * n 0 * (n 1 - n 0 * r 2 + n 2 * r 0),
    2 * n 0 * (n 2 + n 0 * r 1 - n 1 * r 0),
    -2 * n 0 ^ 2,
    -2 * n 0 * n 1,
    -2 * n 0 * n 2;
    2 * n 1 * (n 0 + n 1 * r 2 - n 2 * r 1),
    2 * n 1 * (n 1 - n 0 * r 2 + n 2 * r 0),
    2 * n 1 * (n 2 + n 0 * r 1 - n 1 * r 0),
    -2 * n 0 * n 1,
    -2 * n 1 ^ 2,
    -2 * n 1 * n 2;
    2 * n 2 * (n 0 + n 1 * r 2 - n 2 * r 1),
    2 * n 2 * (n 1 - n 0 * r 2 + n 2 * r 0),
    2 * n 2 * (n 2 + n 0 * r 1 - n 1 * r 0),
    -2 * n 0 * n 2,
    -2 * n 1 * n 2,
    -2 * n 2 ^ 2]

/-- `half_d2H_dx2`, degeneracy_analysis/point_to_plane_linear.txt:73-108. -/
noncomputable def halfPlaneDx2 (p n : Fin 3 → ℝ) : Matrix (Fin 6) (Fin 6) ℝ := !![
    (n 1 * p 2 - n 2 * p 1) ^ 2,
    -((n 0 * p 2 - n 2 * p 0) * (2 * n 1 * p 2 - 2 * n 2 * p 1)) / 2,
    ((n 0 * p 1 - n 1 * p 0) * (2 * n 1 * p 2 - 2 * n 2 * p 1)) / 2,
    -n 0 * (n 1 * p 2 - n 2 * p 1),
    n 1 * n 2 * p 1 - n 1 ^ 2 * p 2,
    n 2 ^ 2 * p 1 - n 1 * n 2 * p 2;
    -((2 * n 0 * p 2 - 2 * n 2 * p 0) * (n 1 * p 2 - n 2 * p 1)) / 2,
    (n 0 * p 2 - n 2 * p 0) ^ 2,
    -((n 0 * p 1 - n 1 * p 0) * (2 * n 0 * p 2 - 2 * n 2 * p 0)) / 2,
    n 0 ^ 2 * p 2 - n 0 * n 2 * p 0,
    n 1 * (n 0 * p 2 - n 2 * p 0),
    n 0 * n 2 * p 2 - n 2 ^ 2 * p 0;
    ((2 * n 0 * p 1 - 2 * n 1 * p 0) * (n 1 * p 2 - n 2 * p 1)) / 2,
    -((2 * n 0 * p 1 - 2 * n 1 * p 0) * (n 0 * p 2 - n 2 * p 0)) / 2,
    (n 0 * p 1 - n 1 * p 0) ^ 2,
    n 0 * n 1 * p 0 - n 0 ^ 2 * p 1,
    n 1 ^ 2 * p 0 - n 0 * n 1 * p 1,
    -n 2 * (n 0 * p 1 - n 1 * p 0);
    -n 0 * (n 1 * p 2 - n 2 * p 1),
    n 0 * (n 0 * p 2 - n 2 * p 0),
    n 0 * n 1 * p 0 - n 0 ^ 2 * p 1,
    n 0 ^ 2,
    n 0 * n 1,
    n 0 * n 2;
    n 1 * n 2 * p 1 - n 1 ^ 2 * p 2,
    n 1 * (n 0 * p 2 - n 2 * p 0),
    n 1 ^ 2 * p 0 - n 0 * n 1 * p 1,
    n 0 * n 1,
    n 1 ^ 2,
    n 1 * n 2;
    n 2 ^ 2 * p 1 - n 1 * n 2 * p 2,
    n 2 * (n 0 * p 2 - n 2 * p 0),
    -n 2 * (n 0 * p 1 - n 1 * p 0),
    n 0 * n 2,
    n 1 * n 2,
    n 2 ^ 2]

/-- `half_d2H_dzdx`, degeneracy_analysis/point_to_plane_linear.txt:109-144. -/
noncomputable def halfPlaneDzdx (r t p q n : Fin 3 → ℝ) : Matrix (Fin 6) (Fin 6) ℝ := !![
    -((2 * n 1 * p 2 - 2 * n 2 * p 1) * (n 0 + n 1 * r 2 - n 2 * r 1)) / 2,
    n 2 * (n 0 * (p 0 - q 0 + t 0 - p 1 * r 2 + p 2 * r 1) + n 1 * (p 1 - q 1 + t 1 + p 0 * r 2 - p 2 * r 0) + n 2 * (p 2 - q 2 + t 2 - p 0 * r 1 + p 1 * r 0)) - ((2 * n 1 * p 2 - 2 * n 2 * p 1) * (n 1 - n 0 * r 2 + n 2 * r 0)) / 2,
    -n 1 * (n 0 * (p 0 - q 0 + t 0 - p 1 * r 2 + p 2 * r 1) + n 1 * (p 1 - q 1 + t 1 + p 0 * r 2 - p 2 * r 0) + n 2 * (p 2 - q 2 + t 2 - p 0 * r 1 + p 1 * r 0)) - ((2 * n 1 * p 2 - 2 * n 2 * p 1) * (n 2 + n 0 * r 1 - n 1 * r 0)) / 2,
    n 0 * (n 1 * p 2 - n 2 * p 1),
    n 1 ^ 2 * p 2 - n 1 * n 2 * p 1,
    n 1 * n 2 * p 2 - n 2 ^ 2 * p 1;
    ((2 * n 0 * p 2 - 2 * n 2 * p 0) * (n 0 + n 1 * r 2 - n 2 * r 1)) / 2 - n 2 * (n 0 * (p 0 - q 0 + t 0 - p 1 * r 2 + p 2 * r 1) + n 1 * (p 1 - q 1 + t 1 + p 0 * r 2 - p 2 * r 0) + n 2 * (p 2 - q 2 + t 2 - p 0 * r 1 + p 1 * r 0)),
    ((2 * n 0 * p 2 - 2 * n 2 * p 0) * (n 1 - n 0 * r 2 + n 2 * r 0)) / 2,
    n 0 * (n 0 * (p 0 - q 0 + t 0 - p 1 * r 2 + p 2 * r 1) + n 1 * (p 1 - q 1 + t 1 + p 0 * r 2 - p 2 * r 0) + n 2 * (p 2 - q 2 + t 2 - p 0 * r 1 + p 1 * r 0)) + ((2 * n 0 * p 2 - 2 * n 2 * p 0) * (n 2 + n 0 * r 1 - n 1 * r 0)) / 2,
    n 0 * n 2 * p 0 - n 0 ^ 2 * p 2,
    -n 1 * (n 0 * p 2 - n 2 * p 0),
    n 2 ^ 2 * p 0 - n 0 * n 2 * p 2;
    n 1 * (n 0 * (p 0 - q 0 + t 0 - p 1 * r 2 + p 2 * r 1) + n 1 * (p 1 - q 1 + t 1 + p 0 * r 2 - p 2 * r 0) + n 2 * (p 2 - q 2 + t 2 - p 0 * r 1 + p 1 * r 0)) - ((2 * n 0 * p 1 - 2 * n 1 * p 0) * (n 0 + n 1 * r 2 - n 2 * r 1)) / 2,
    -n 0 * (n 0 * (p 0 - q 0 + t 0 - p 1 * r 2 + p 2 * r 1) + n 1 * (p 1 - q 1 + t 1 + p 0 * r 2 - p 2 * r 0) + n 2 * (p 2 - q 2 + t 2 - p 0 * r 1 + p 1 * r 0)) - ((2 * n 0 * p 1 - 2 * n 1 * p 0) * (n 1 - n 0 * r 2 + n 2 * r 0)) / 2,
    -((2 * n 0 * p 1 - 2 * n 1 * p 0) * (n 2 + n 0 * r 1 - n 1 * r 0)) / 2,
    n 0 ^ 2 * p 1 - n 0 * n 1 * p 0,
    n 0 * n 1 * p 1 - n 1 ^ 2 * p 0,
    n 2 * (n 0 * p 1 - n 1 * p 0);
    n 0 * (n 0 + n 1 * r 2 - n 2 * r 1),
    n 0 * (n 1 - n 0 * r 2 + n 2 * r 0),
    n 0 * (n 2 + n 0 * r 1 - n 1 * r 0),
    -n 0 ^ 2,
    -n 0 * n 1,
    -n 0 * n 2;
    n 1 * (n 0 + n 1 * r 2 - n 2 * r 1),
    n 1 * (n 1 - n 0 * r 2 + n 2 * r 0),
    n 1 * (n 2 + n 0 * r 1 - n 1 * r 0),
    -n 0 * n 1,
    -n 1 ^ 2,
    -n 1 * n 2;
    n 2 * (n 0 + n 1 * r 2 - n 2 * r 1),
    n 2 * (n 1 - n 0 * r 2 + n 2 * r 0),
    n 2 * (n 2 + n 0 * r 1 - n 1 * r 0),
    -n 0 * n 2,
    -n 1 * n 2,
    -n 2 ^ 2]

end Files

end Degeneracy

end Serpent
