import Verif.Model.EigenExt
import Mathlib.LinearAlgebra.Matrix.PosDef

/-!
# C38: reordering of covariances
-/

namespace Serpent

namespace EigenExt

open Matrix

variable {K : Type}

/-- Which component of the state comes to position `i` when the first `b` components are moved behind the others. -/
def moved {n : Nat} (b : Nat) (i : Fin n) : Fin n := ⟨(i + b) % n, Nat.mod_lt _ (lt_of_le_of_lt (Nat.zero_le _) i.2)⟩

/-- `moved` says what the words say: the others first, then the first `b`. -/
theorem moved_val {n : Nat} {b : Nat} (hb : b ≤ n) (i : Fin n) :
    (moved b i : Nat) = if (i : Nat) < n - b then b + i else i - (n - b) := by
  unfold moved
  have := i.2
  split
  · simp only; rw [Nat.mod_eq_of_lt (by omega)]; omega
  · simp only
    have : (i : Nat) + b = (i - (n - b)) + n := by omega
    rw [this, Nat.add_mod_right, Nat.mod_eq_of_lt (by omega)]

theorem moved_moved {n : Nat} {b : Nat} (hb : b ≤ n) (i : Fin n) : moved b (moved (n - b) i) = i := by
  apply Fin.ext
  have hi := i.2
  rw [moved_val hb, moved_val (by omega)]
  split <;> split <;> omega

theorem moved_injective {n : Nat} {b : Nat} (hb : b ≤ n) : Function.Injective (moved (n := n) b) := by
  intro i j h
  have hi := i.2
  have hj := j.2
  have := congrArg Fin.val h
  rw [moved_val hb, moved_val hb] at this
  apply Fin.ext
  split at this <;> split at this <;> omega

/-- `moved` as a permutation. -/
noncomputable def movedEquiv {n : Nat} {b : Nat} (hb : b ≤ n) : Fin n ≃ Fin n :=
  Equiv.ofBijective (moved b) (Finite.injective_iff_bijective.1 (moved_injective hb))

theorem coeff_ok {m n : Nat} (M : Matrix (Fin m) (Fin n) K) (i : Fin m) (j : Fin n) {a b : Nat} (ha : a = i) (hb : b = j) :
    coeff M a b = .ok (M i j) := by
  subst ha hb
  unfold coeff
  rw [dif_pos ⟨i.2, j.2⟩]

theorem allOk_eq {m n : Nat} (f : Nat → Nat → Outcome K) (h : ∀ (i : Fin m) (j : Fin n), ∃ a, f i j = .ok a)
    (D : Matrix (Fin m) (Fin n) K) (hD : ∀ (i : Fin m) (j : Fin n), f i j = .ok (D i j)) : allOk f h = D := by
  funext i j
  exact (Outcome.ok.inj ((hD i j).symm.trans (h i j).choose_spec)).symm

theorem reorder_eq {n : Nat} (C : Matrix (Fin n) (Fin n) K) {b : Nat} (h0 : 0 < b) (hn : b < n) :
    reorderCovariance C b = .ok (C.submatrix (moved b) (moved b)) := by
  have key : ∀ i j : Fin n, comma4 (n - b) (n - b) (block C b b) (block C b 0) (block C 0 b) (block C 0 0) i j =
      .ok (C (moved b i) (moved b j)) := by
    intro i j
    have hi := i.2
    have hj := j.2
    have vi := moved_val (b := b) (by omega) i
    have vj := moved_val (b := b) (by omega) j
    unfold comma4 block
    split
    · rename_i h1
      rw [if_pos h1] at vi
      split
      · rename_i h2
        rw [if_pos h2] at vj
        exact coeff_ok C _ _ (by omega) (by omega)
      · rename_i h2
        rw [if_neg h2] at vj
        exact coeff_ok C _ _ (by omega) (by omega)
    · rename_i h1
      rw [if_neg h1] at vi
      split
      · rename_i h2
        rw [if_pos h2] at vj
        exact coeff_ok C _ _ (by omega) (by omega)
      · rename_i h2
        rw [if_neg h2] at vj
        exact coeff_ok C _ _ (by omega) (by omega)
  unfold reorderCovariance
  rw [if_neg (by omega), if_neg (by omega), if_neg (by omega)]
  dsimp only
  rw [dif_pos (fun i j => ⟨_, key i j⟩)]
  exact congrArg _ (allOk_eq _ _ _ key)

/-- C38. The call throws exactly for boundary 0, a matrix that is not square or a boundary that is not inside the matrix; it
never reads outside of the matrix. -/
theorem C38_throws_iff {m n : Nat} (C : Matrix (Fin m) (Fin n) K) (b : Nat) :
    (reorderCovariance C b = .throws ↔ b = 0 ∨ m ≠ n ∨ m ≤ b) ∧ reorderCovariance C b ≠ .ub := by
  by_cases h0 : b = 0
  · unfold reorderCovariance; simp [h0]
  · by_cases hmn : m = n
    · subst hmn
      by_cases hb : m ≤ b
      · unfold reorderCovariance; simp [h0, hb]
      · rw [reorder_eq C (by omega) (by omega)]
        simp [h0, hb]
    · unfold reorderCovariance; simp [h0, hmn]

/-- C38. Entry `(i, j)` of the result is the entry of the components that come to positions `i` and `j` when the first `b`
components of the state are moved behind the others. -/
theorem C38_entries {n : Nat} (C D : Matrix (Fin n) (Fin n) K) (b : Nat) (h : reorderCovariance C b = .ok D) (i j : Fin n) :
    D i j = C (moved b i) (moved b j) := by
  have ht := C38_throws_iff C b
  have : ¬ (b = 0 ∨ n ≠ n ∨ n ≤ b) := by
    rw [← ht.1, h]; simp
  rw [reorder_eq C (by omega) (by omega)] at h
  rw [← Outcome.ok.inj h]; rfl

/-- C38. Reordering with the complementary boundary restores the matrix. -/
theorem C38_restore {n : Nat} (C D : Matrix (Fin n) (Fin n) K) (b : Nat) (h : reorderCovariance C b = .ok D) :
    reorderCovariance D (n - b) = .ok C := by
  have ht := C38_throws_iff C b
  have hb : ¬ (b = 0 ∨ n ≠ n ∨ n ≤ b) := by
    rw [← ht.1, h]; simp
  rw [reorder_eq D (by omega) (by omega)]
  refine congrArg _ ?_
  funext i j
  rw [Matrix.submatrix_apply, C38_entries C D b h, moved_moved (by omega), moved_moved (by omega)]

/-- C38. The result is symmetric, positive semidefinite or positive definite exactly if the argument is. -/
theorem C38_validity {n : Nat} (C D : Matrix (Fin n) (Fin n) ℝ) (b : Nat) (h : reorderCovariance C b = .ok D) :
    (D.IsSymm ↔ C.IsSymm) ∧ (D.PosSemidef ↔ C.PosSemidef) ∧ (D.PosDef ↔ C.PosDef) := by
  have ht := C38_throws_iff C b
  have hb : ¬ (b = 0 ∨ n ≠ n ∨ n ≤ b) := by
    rw [← ht.1, h]; simp
  have fwd : ∀ (C D : Matrix (Fin n) (Fin n) ℝ) (b : Nat), 0 < b → b < n → D = C.submatrix (moved b) (moved b) →
      (C.IsSymm → D.IsSymm) ∧ (C.PosSemidef → D.PosSemidef) ∧ (C.PosDef → D.PosDef) := by
    rintro C D b h0 hn rfl
    exact ⟨fun h => h.submatrix _, fun h => h.submatrix _, fun h => h.submatrix (moved_injective (by omega))⟩
  have h1 : D = C.submatrix (moved b) (moved b) := by
    rw [reorder_eq C (by omega) (by omega)] at h; exact (Outcome.ok.inj h).symm
  have h2 : C = D.submatrix (moved (n - b)) (moved (n - b)) := by
    have := C38_restore C D b h
    rw [reorder_eq D (by omega) (by omega)] at this; exact (Outcome.ok.inj this).symm
  obtain ⟨a1, a2, a3⟩ := fwd C D b (by omega) (by omega) h1
  obtain ⟨b1, b2, b3⟩ := fwd D C (n - b) (by omega) (by omega) h2
  exact ⟨⟨b1, a1⟩, ⟨b2, a2⟩, ⟨b3, a3⟩⟩

/-- C38. The variances are the same, in another order. -/
theorem C38_variances {n : Nat} (C D : Matrix (Fin n) (Fin n) K) (b : Nat) (h : reorderCovariance C b = .ok D) :
    Finset.univ.val.map (fun i => D i i) = Finset.univ.val.map (fun i => C i i) := by
  have ht := C38_throws_iff C b
  have hb : ¬ (b = 0 ∨ n ≠ n ∨ n ≤ b) := by
    rw [← ht.1, h]; simp
  have : (fun i => D i i) = (fun i => C i i) ∘ (movedEquiv (n := n) (b := b) (by omega)) := by
    funext i; rw [C38_entries C D b h]; rfl
  rw [this, ← Multiset.map_map]
  congr 1
  have := Finset.map_univ_equiv (movedEquiv (n := n) (b := b) (by omega))
  rw [← this]
  simp

/-- A 3x3 example: boundary 1. -/
example : reorderCovariance !![1, 2, 3; 2, 5, 6; 3, 6, (9 : ℚ)] 1 = .ok !![5, 6, 2; 6, 9, 3; 2, 3, (1 : ℚ)] := by
  rw [reorder_eq _ (by norm_num) (by norm_num)]
  refine congrArg _ ?_
  funext i j
  fin_cases i <;> fin_cases j <;> rfl

end EigenExt

end Serpent
