import Verif.Lemmas.Cholesky
import Mathlib.Algebra.Order.Star.Real

/-!
# C42: validity of covariances
-/

namespace Serpent

namespace EigenExt

open Matrix

variable {n : Nat}

theorem symmetricRow_spec (M : Matrix (Fin n) (Fin n) ℝ) (p : ℝ) (r : Fin n) (fuel : Nat) : ∀ c, c + fuel = n →
    ∃ b, symmetricRow M p r fuel c = .ok b ∧ (b = true ↔ ∀ j : Fin n, c ≤ (j : Nat) → |M r j - M j r| ≤ p) := by
  induction fuel with
  | zero =>
    intro c hc
    exact ⟨true, rfl, by simp only [true_iff]; intro j hj; have := j.2; omega⟩
  | succ fuel ih =>
    intro c hc
    have hlt : c < n := by omega
    obtain ⟨b, h1, h2⟩ := ih (c + 1) (by omega)
    unfold symmetricRow
    have e1 : coeff M r c = .ok (M r ⟨c, hlt⟩) := by unfold coeff; rw [dif_pos ⟨r.2, hlt⟩]
    have e2 : coeff M c r = .ok (M ⟨c, hlt⟩ r) := by unfold coeff; rw [dif_pos ⟨hlt, r.2⟩]
    rw [e1, e2]
    simp only [Outcome.bind_ok]
    by_cases hgt : |M r ⟨c, hlt⟩ - M ⟨c, hlt⟩ r| > p
    · rw [if_pos hgt]
      refine ⟨false, rfl, ?_⟩
      simp only [Bool.false_eq_true, false_iff, not_forall]
      exact ⟨⟨c, hlt⟩, le_rfl, not_le.2 hgt⟩
    · rw [if_neg hgt]
      refine ⟨b, h1, h2.trans ⟨fun h j hj => ?_, fun h j hj => h j (by omega)⟩⟩
      rcases Nat.eq_or_lt_of_le hj with he | hlt'
      · have : j = ⟨c, hlt⟩ := Fin.ext he.symm
        rw [this]; exact not_lt.1 hgt
      · exact h j hlt'

theorem symmetricRows_spec (M : Matrix (Fin n) (Fin n) ℝ) (p : ℝ) (fuel : Nat) : ∀ r, r + fuel = n - 1 →
    ∃ b, symmetricRows M p fuel r = .ok b ∧
      (b = true ↔ ∀ i j : Fin n, r ≤ (i : Nat) → i < j → |M i j - M j i| ≤ p) := by
  induction fuel with
  | zero =>
    intro r hr
    refine ⟨true, rfl, ?_⟩
    simp only [true_iff]
    intro i j hi hij
    have := j.2
    have : (i : Nat) < j := hij
    omega
  | succ fuel ih =>
    intro r hr
    have hlt : r < n := by omega
    obtain ⟨b, h1, h2⟩ := symmetricRow_spec M p ⟨r, hlt⟩ (n - (r + 1)) (r + 1) (by omega)
    obtain ⟨b', h3, h4⟩ := ih (r + 1) (by omega)
    unfold symmetricRows
    simp only at h1
    rw [h1]
    simp only [Outcome.bind_ok]
    cases b with
    | false =>
      refine ⟨false, rfl, ?_⟩
      simp only [Bool.false_eq_true, false_iff]
      intro h
      have := h2.2 (fun j hj => h ⟨r, hlt⟩ j le_rfl (by simp only [Fin.lt_def]; omega))
      simp at this
    | true =>
      refine ⟨b', h3, h4.trans ⟨fun h i j hi hij => ?_, fun h i j hi hij => h i j (by omega) hij⟩⟩
      rcases Nat.eq_or_lt_of_le hi with he | hlt'
      · have : i = ⟨r, hlt⟩ := Fin.ext he.symm
        subst this
        exact h2.1 rfl j hij
      · exact h i j hlt' hij

/-- C42. For square matrices the symmetry test returns true exactly if all pairs of opposite coefficients agree within the
tolerance; it reads no coefficient outside of the matrix. -/
theorem C42_symmetric_partial (M : Matrix (Fin n) (Fin n) ℝ) (p : ℝ) :
    ∃ b, isSymmetric M p = .ok b ∧ (b = true ↔ ∀ i j : Fin n, i ≠ j → |M i j - M j i| ≤ p) := by
  obtain ⟨b, h1, h2⟩ := symmetricRows_spec M p (n - 1) 0 (by omega)
  refine ⟨b, h1, h2.trans ⟨fun h i j hij => ?_, fun h i j _ hij => h i j (ne_of_lt hij)⟩⟩
  rcases lt_or_gt_of_ne hij with h' | h'
  · exact h i j (Nat.zero_le _) h'
  · rw [abs_sub_comm]; exact h j i (Nat.zero_le _) h'

/-- C42. The Cholesky test returns true exactly if the symmetric matrix with this lower triangle is positive definite. -/
theorem C42_positive_definite (M : Matrix (Fin n) (Fin n) ℝ) :
    isPositiveDefinite M = true ↔ (Matrix.of fun i j => if j ≤ i then M i j else M j i).PosDef :=
  isPositiveDefinite_iff M

theorem lowerSym_of_symm {M : Matrix (Fin n) (Fin n) ℝ} (h : M.IsSymm) : lowerSym M = M := by
  ext i j
  unfold lowerSym
  split
  · rfl
  · exact h.apply i j

theorem isValidSquare_spec (C : Matrix (Fin n) (Fin n) ℝ) (p : ℝ) : ∃ b, isValidSquare C p = .ok b ∧
    (b = true ↔ (∀ i j : Fin n, i ≠ j → |C i j - C j i| ≤ p) ∧ (lowerSym C).PosDef) := by
  unfold isValidSquare
  by_cases hpd : isPositiveDefinite C = false
  · rw [if_pos hpd]
    refine ⟨false, rfl, ?_⟩
    simp only [Bool.false_eq_true, false_iff, not_and]
    intro _ h
    rw [← isPositiveDefinite_iff, hpd] at h
    simp at h
  · rw [if_neg hpd]
    have hpd' : (lowerSym C).PosDef := (isPositiveDefinite_iff C).1 (by simpa using hpd)
    obtain ⟨b, h1, h2⟩ := C42_symmetric_partial C p
    rw [h1]
    simp only [Outcome.bind_ok]
    cases b with
    | false =>
      refine ⟨false, by simp, ?_⟩
      simp only [Bool.false_eq_true, false_iff, not_and]
      intro h
      have := h2.2 h
      simp at this
    | true =>
      refine ⟨true, ?_, ⟨fun _ => ⟨h2.1 rfl, hpd'⟩, fun _ => rfl⟩⟩
      rw [if_neg (by simp)]
      refine congrArg _ (decide_eq_true fun r _ => ?_)
      have := hpd'.diag_pos (i := r)
      unfold lowerSym at this
      rw [if_pos le_rfl] at this
      exact not_lt.2 this.le

/-- C42. The test returns true exactly for square matrices that are symmetric within the tolerance and whose lower triangle
is that of a positive definite matrix; it never fails. -/
theorem C42_valid {m n : Nat} (C : Matrix (Fin m) (Fin n) ℝ) (p : ℝ) : ∃ b, isValidCovariance C p = .ok b ∧
    (b = true ↔ ∃ h : m = n, (∀ i j : Fin m, i ≠ j → |C i (Fin.cast h j) - C j (Fin.cast h i)| ≤ p) ∧
      (Matrix.of fun i j : Fin m => if j ≤ i then C i (Fin.cast h j) else C j (Fin.cast h i)).PosDef) := by
  unfold isValidCovariance
  by_cases h : m = n
  · rw [dif_pos h]
    obtain ⟨b, h1, h2⟩ := isValidSquare_spec (C.submatrix (fun i => i) (Fin.cast h)) p
    exact ⟨b, h1, h2.trans ⟨fun hh => ⟨h, hh⟩, fun ⟨_, hh⟩ => hh⟩⟩
  · rw [dif_neg h]
    exact ⟨false, rfl, by simp [h]⟩

/-- C42. With the default tolerance 0 the test returns true exactly for positive definite (symmetric) matrices. -/
theorem C42_default (C : Matrix (Fin n) (Fin n) ℝ) : isValidCovariance C 0 = .ok true ↔ C.PosDef := by
  obtain ⟨b, h1, h2⟩ := isValidSquare_spec C 0
  have e : isValidCovariance C 0 = isValidSquare C 0 := by unfold isValidCovariance; rw [dif_pos rfl]; rfl
  rw [e, h1]
  have : (Outcome.ok b = .ok true ↔ b = true) := by simp
  rw [this, h2]
  constructor
  · rintro ⟨hs, hp⟩
    have : C.IsSymm := by
      ext i j
      by_cases hij : i = j
      · subst hij; rfl
      · have := hs j i (fun h => hij h.symm)
        have := abs_nonpos_iff.1 this
        rw [transpose_apply]; linarith
    rwa [lowerSym_of_symm this] at hp
  · intro hp
    have hsym : C.IsSymm := by
      have := hp.isHermitian
      ext i j
      have := this.apply i j
      simpa using this
    refine ⟨fun i j _ => ?_, by rwa [lowerSym_of_symm hsym]⟩
    rw [hsym.apply j i]; simp

/-- C42. For symmetric matrices and a tolerance that is not negative the test returns true exactly if the matrix is positive
definite. -/
theorem C42_symmetric_argument (C : Matrix (Fin n) (Fin n) ℝ) (hs : C.IsSymm) (p : ℝ) (hp : 0 ≤ p) :
    isValidCovariance C p = .ok true ↔ C.PosDef := by
  obtain ⟨b, h1, h2⟩ := isValidSquare_spec C p
  have e : isValidCovariance C p = isValidSquare C p := by unfold isValidCovariance; rw [dif_pos rfl]; rfl
  rw [e, h1, lowerSym_of_symm hs] at *
  have : (Outcome.ok b = .ok true ↔ b = true) := by simp
  rw [this, h2]
  refine ⟨fun h => h.2, fun h => ⟨fun i j _ => ?_, h⟩⟩
  rw [hs.apply j i]; simpa using hp

/-- C42. The test for non-zero diagonals returns true exactly if all coefficients on the diagonal are positive, which holds
for every valid covariance. -/
theorem C42_diagonals (M : Matrix (Fin (n + 1)) (Fin (n + 1)) ℝ) :
    (nonZeroDiagonals M = true ↔ ∀ i, 0 < M i i) ∧ (M.PosDef → nonZeroDiagonals M = true) := by
  have : nonZeroDiagonals M = true ↔ ∀ i, 0 < M i i := by
    unfold nonZeroDiagonals
    rw [decide_eq_true_iff, gt_iff_lt, Finset.lt_inf'_iff]
    simp
  exact ⟨this, fun h => this.2 (fun i => h.diag_pos)⟩

/-- C42 fails for matrices that are not square: a matrix with more rows than columns can count as symmetric. -/
theorem C42_fails_not_square : ∃ M : Matrix (Fin 2) (Fin 1) ℝ, isSymmetric M 0 = .ok true :=
  ⟨0, rfl⟩

/-- C42 fails for matrices that are not square: with more columns than rows, coefficients outside of the matrix are read. -/
theorem C42_fails_reads_outside : ∃ M : Matrix (Fin 2) (Fin 3) ℝ, isSymmetric M 0 = .ub := by
  refine ⟨0, ?_⟩
  simp [isSymmetric, symmetricRows, symmetricRow, coeff]

theorem symmetricRow_tall {m n : Nat} (h : n ≤ m) (M : Matrix (Fin m) (Fin n) ℝ) (p : ℝ) (r : Fin n) (fuel : Nat) :
    ∀ c, c + fuel = n → ∃ b, symmetricRow M p r fuel c = .ok b ∧
      (b = true ↔ ∀ j : Fin n, c ≤ (j : Nat) → |M (Fin.castLE h r) j - M (Fin.castLE h j) r| ≤ p) := by
  induction fuel with
  | zero =>
    intro c hc
    exact ⟨true, rfl, by simp only [true_iff]; intro j hj; have := j.2; omega⟩
  | succ fuel ih =>
    intro c hc
    have hlt : c < n := by omega
    obtain ⟨b, h1, h2⟩ := ih (c + 1) (by omega)
    unfold symmetricRow
    have e1 : coeff M r c = .ok (M (Fin.castLE h r) ⟨c, hlt⟩) := by
      unfold coeff; rw [dif_pos ⟨by have := r.2; omega, hlt⟩]; rfl
    have e2 : coeff M c r = .ok (M (Fin.castLE h ⟨c, hlt⟩) r) := by
      unfold coeff; rw [dif_pos ⟨by omega, r.2⟩]; rfl
    rw [e1, e2]
    simp only [Outcome.bind_ok]
    by_cases hgt : |M (Fin.castLE h r) ⟨c, hlt⟩ - M (Fin.castLE h ⟨c, hlt⟩) r| > p
    · rw [if_pos hgt]
      refine ⟨false, rfl, ?_⟩
      simp only [Bool.false_eq_true, false_iff, not_forall]
      exact ⟨⟨c, hlt⟩, le_rfl, not_le.2 hgt⟩
    · rw [if_neg hgt]
      refine ⟨b, h1, h2.trans ⟨fun h j hj => ?_, fun h j hj => h j (by omega)⟩⟩
      rcases Nat.eq_or_lt_of_le hj with he | hlt'
      · have : j = ⟨c, hlt⟩ := Fin.ext he.symm
        rw [this]; exact not_lt.1 hgt
      · exact h j hlt'

theorem symmetricRows_tall {m n : Nat} (h : n ≤ m) (M : Matrix (Fin m) (Fin n) ℝ) (p : ℝ) (fuel : Nat) :
    ∀ r, r + fuel = m - 1 → ∃ b, symmetricRows M p fuel r = .ok b ∧
      (b = true ↔ ∀ i j : Fin n, r ≤ (i : Nat) → i < j → |M (Fin.castLE h i) j - M (Fin.castLE h j) i| ≤ p) := by
  induction fuel with
  | zero =>
    intro r hr
    refine ⟨true, rfl, ?_⟩
    simp only [true_iff]
    intro i j hi hij
    have := j.2
    have : (i : Nat) < j := hij
    omega
  | succ fuel ih =>
    intro r hr
    obtain ⟨b', h3, h4⟩ := ih (r + 1) (by omega)
    unfold symmetricRows
    by_cases hlt : r < n
    · obtain ⟨b, h1, h2⟩ := symmetricRow_tall h M p ⟨r, hlt⟩ (n - (r + 1)) (r + 1) (by omega)
      rw [h1, Outcome.bind_ok]
      cases b with
      | false =>
        refine ⟨false, rfl, ?_⟩
        simp only [Bool.false_eq_true, false_iff] at h2 ⊢
        intro hh
        exact h2 (fun j hj => hh ⟨r, hlt⟩ j le_rfl (Fin.lt_def.2 hj))
      | true =>
        refine ⟨b', h3, h4.trans ⟨fun hh i j hi hij => ?_, fun hh i j hi hij => hh i j (by omega) hij⟩⟩
        rcases Nat.eq_or_lt_of_le hi with he | hlt'
        · have : i = ⟨r, hlt⟩ := Fin.ext he.symm
          subst this
          exact h2.1 rfl j (Fin.lt_def.1 hij)
        · exact hh i j hlt' hij
    · have e : n - (r + 1) = 0 := by omega
      rw [e]
      refine ⟨b', h3, h4.trans ⟨fun hh i j hi hij => ?_, fun hh i j hi hij => hh i j (by omega) hij⟩⟩
      have := i.2
      omega

/-- C42. A matrix with at least as many rows as columns counts as symmetric exactly if the square matrix of its first rows is:
the rows below it are ignored, and no coefficient outside of the matrix is read. -/
theorem C42_symmetric_tall {m n : Nat} (h : n ≤ m) (M : Matrix (Fin m) (Fin n) ℝ) (p : ℝ) : ∃ b, isSymmetric M p = .ok b ∧
    (b = true ↔ ∀ i j : Fin n, i ≠ j → |M (Fin.castLE h i) j - M (Fin.castLE h j) i| ≤ p) := by
  obtain ⟨b, h1, h2⟩ := symmetricRows_tall h M p (m - 1) 0 (by omega)
  refine ⟨b, h1, h2.trans ⟨fun hh i j hij => ?_, fun hh i j _ hij => hh i j (ne_of_lt hij)⟩⟩
  rcases lt_or_gt_of_ne hij with hl | hl
  · exact hh i j (by omega) hl
  · rw [abs_sub_comm]; exact hh j i (by omega) hl

theorem symmetricRow_wide {m n : Nat} (h : m < n) (M : Matrix (Fin m) (Fin n) ℝ) (p : ℝ) (r : Fin m) (fuel : Nat) :
    ∀ c k, c + k = m → c + fuel = n → ((∀ j : Fin m, c ≤ (j : Nat) → |M r (Fin.castLE h.le j) - M j (Fin.castLE h.le r)| ≤ p) →
        symmetricRow M p r fuel c = .ub) ∧
      ((¬ ∀ j : Fin m, c ≤ (j : Nat) → |M r (Fin.castLE h.le j) - M j (Fin.castLE h.le r)| ≤ p) →
        symmetricRow M p r fuel c = .ok false) := by
  induction fuel with
  | zero => intro c k hc hf; omega
  | succ fuel ih =>
    intro c k hc hf
    cases k with
    | zero =>
      have hcm : c = m := by omega
      refine ⟨fun _ => ?_, fun hn => absurd (fun j hj => by have := j.2; omega) hn⟩
      unfold symmetricRow
      have e1 : coeff M r c = .ok (M r ⟨c, by omega⟩) := by unfold coeff; rw [dif_pos ⟨r.2, by omega⟩]
      have e2 : coeff M c r = .ub := by unfold coeff; rw [dif_neg (by omega)]
      rw [e1, e2]
      rfl
    | succ k =>
      have hlt : c < m := by omega
      obtain ⟨h1, h2⟩ := ih (c + 1) k (by omega) (by omega)
      unfold symmetricRow
      have e1 : coeff M r c = .ok (M r (Fin.castLE h.le ⟨c, hlt⟩)) := by
        unfold coeff; rw [dif_pos ⟨r.2, by omega⟩]; rfl
      have e2 : coeff M c r = .ok (M ⟨c, hlt⟩ (Fin.castLE h.le r)) := by
        unfold coeff; rw [dif_pos ⟨hlt, by have := r.2; omega⟩]; rfl
      rw [e1, e2]
      simp only [Outcome.bind_ok]
      by_cases hgt : |M r (Fin.castLE h.le ⟨c, hlt⟩) - M ⟨c, hlt⟩ (Fin.castLE h.le r)| > p
      · rw [if_pos hgt]
        exact ⟨fun hh => absurd (hh ⟨c, hlt⟩ le_rfl) (not_le.2 hgt), fun _ => rfl⟩
      · rw [if_neg hgt]
        refine ⟨fun hh => h1 (fun j hj => hh j (by omega)), fun hh => h2 (fun hh' => hh (fun j hj => ?_))⟩
        rcases Nat.eq_or_lt_of_le hj with he | hlt'
        · have : j = ⟨c, hlt⟩ := Fin.ext he.symm
          rw [this]; exact not_lt.1 hgt
        · exact hh' j hlt'

/-- C42. A matrix with more columns than rows never counts as symmetric, unless it has at most one row: if its first row agrees
with its first column as far as that goes, a coefficient outside of the matrix is read, and otherwise the test returns false. -/
theorem C42_symmetric_wide {m n : Nat} (h : m + 2 < n) (M : Matrix (Fin (m + 2)) (Fin n) ℝ) (p : ℝ) :
    ((∀ j : Fin (m + 2), j ≠ 0 → |M 0 (Fin.castLE h.le j) - M j ⟨0, by omega⟩| ≤ p) → isSymmetric M p = .ub) ∧
    ((¬ ∀ j : Fin (m + 2), j ≠ 0 → |M 0 (Fin.castLE h.le j) - M j ⟨0, by omega⟩| ≤ p) → isSymmetric M p = .ok false) := by
  obtain ⟨h1, h2⟩ := symmetricRow_wide h M p 0 (n - 1) 1 (m + 1) (by omega) (by omega)
  have e : (∀ j : Fin (m + 2), j ≠ 0 → |M 0 (Fin.castLE h.le j) - M j ⟨0, by omega⟩| ≤ p) ↔
      ∀ j : Fin (m + 2), 1 ≤ (j : Nat) → |M 0 (Fin.castLE h.le j) - M j (Fin.castLE h.le 0)| ≤ p :=
    forall_congr' fun j => ⟨fun hh hj => hh (fun h0 => by simp [h0] at hj), fun hh hj => hh (by
      by_contra hc
      exact hj (Fin.ext (by rw [Fin.val_zero]; omega)))⟩
  rw [e]
  have e' : isSymmetric M p = symmetricRow M p 0 (n - 1) 1 >>= fun b =>
      if b then symmetricRows M p m 1 else .ok false := rfl
  rw [e']
  exact ⟨fun hh => by rw [show symmetricRow M p 0 (n - 1) 1 = .ub from h1 hh]; rfl,
    fun hh => by rw [show symmetricRow M p 0 (n - 1) 1 = .ok false from h2 hh]; rfl⟩

/-- C42. A matrix with at most one row counts as symmetric, whatever its columns. -/
theorem C42_symmetric_row {m n : Nat} (h : m ≤ 1) (M : Matrix (Fin m) (Fin n) ℝ) (p : ℝ) : isSymmetric M p = .ok true := by
  unfold isSymmetric
  rw [show m - 1 = 0 by omega]
  rfl

example : isSymmetric !![1, 2; 2, 3; 7, (8 : ℝ)] 0 = .ok true ∧ isSymmetric !![1, 2, 7; 3, 4, (8 : ℝ)] 0 = .ok false := by
  constructor
  · obtain ⟨b, h1, h2⟩ := C42_symmetric_tall (by omega) !![1, 2; 2, 3; 7, (8 : ℝ)] 0
    rw [h1, h2.2]
    intro i j hij
    fin_cases i <;> fin_cases j <;> simp_all
  · refine (C42_symmetric_wide (m := 0) (by omega) _ _).2 (fun h => ?_)
    have := h 1 (by simp)
    have e : (!![1, 2, 7; 3, 4, (8 : ℝ)] : Matrix (Fin 2) (Fin 3) ℝ) 0 (Fin.castLE (by omega) (1 : Fin 2)) = 2 := rfl
    have e' : (!![1, 2, 7; 3, 4, (8 : ℝ)] : Matrix (Fin 2) (Fin 3) ℝ) 1 ⟨0, by omega⟩ = 3 := rfl
    erw [e, e'] at this
    norm_num at this

/-- The identity is valid, a matrix with a negative determinant is not. -/
example : isValidCovariance (1 : Matrix (Fin 3) (Fin 3) ℝ) 0 = .ok true := (C42_default 1).2 Matrix.PosDef.one

example : isValidCovariance !![1, 2; 2, (1 : ℝ)] 0 ≠ .ok true := by
  rw [Ne, C42_default]
  intro h
  have := h.dotProduct_mulVec_pos (x := ![1, -1]) (by intro h; have := congrFun h 0; simp at this)
  simp [dotProduct, mulVec, Fin.sum_univ_two] at this

end EigenExt

end Serpent
