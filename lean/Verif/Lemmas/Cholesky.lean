import Verif.Model.EigenExt
import Mathlib.LinearAlgebra.Matrix.PosDef
import Mathlib.Algebra.BigOperators.Field

/-!
# The Cholesky decomposition succeeds exactly for positive definite matrices
-/

namespace Serpent

namespace EigenExt

open Matrix

variable {n : Nat}

/-- Positive on the vectors whose components before `k` vanish. -/
def PDfrom (k : Nat) (R : Matrix (Fin n) (Fin n) ℝ) : Prop :=
  ∀ w : Fin n → ℝ, w ≠ 0 → (∀ j : Fin n, (j : Nat) < k → w j = 0) → 0 < w ⬝ᵥ R *ᵥ w

/-- The matrix described by the lower triangle. -/
def lowerSym (M : Matrix (Fin n) (Fin n) ℝ) : Matrix (Fin n) (Fin n) ℝ := fun i j => if j ≤ i then M i j else M j i

theorem lowerSym_symm (M : Matrix (Fin n) (Fin n) ℝ) (i j : Fin n) : lowerSym M i j = lowerSym M j i := by
  unfold lowerSym
  rcases lt_trichotomy i j with h | h | h
  · rw [if_neg (not_le.2 h), if_pos h.le]
  · subst h; rfl
  · rw [if_pos h.le, if_neg (not_le.2 h)]

theorem quad_eq (R : Matrix (Fin n) (Fin n) ℝ) (w : Fin n → ℝ) : w ⬝ᵥ R *ᵥ w = ∑ i, ∑ j, w i * (R i j * w j) := by
  simp only [dotProduct, mulVec, Finset.mul_sum]

theorem PDfrom_congr {k : Nat} {R R' : Matrix (Fin n) (Fin n) ℝ}
    (h : ∀ i j : Fin n, k ≤ (i : Nat) → k ≤ (j : Nat) → R i j = R' i j) : PDfrom k R ↔ PDfrom k R' := by
  have key : ∀ w : Fin n → ℝ, (∀ j : Fin n, (j : Nat) < k → w j = 0) → w ⬝ᵥ R *ᵥ w = w ⬝ᵥ R' *ᵥ w := by
    intro w hw
    rw [quad_eq, quad_eq]
    refine Finset.sum_congr rfl fun i _ => Finset.sum_congr rfl fun j _ => ?_
    by_cases hi : (i : Nat) < k
    · rw [hw i hi]; ring
    · by_cases hj : (j : Nat) < k
      · rw [hw j hj]; ring
      · rw [h i j (by omega) (by omega)]
  constructor
  · intro hp w h0 hw; rw [← key w hw]; exact hp w h0 hw
  · intro hp w h0 hw; rw [key w hw]; exact hp w h0 hw

theorem quad_add (R : Matrix (Fin n) (Fin n) ℝ) (hs : ∀ i j, R i j = R j i) (k : Fin n) (w : Fin n → ℝ) (c : ℝ) :
    (w + Pi.single k c) ⬝ᵥ R *ᵥ (w + Pi.single k c) = w ⬝ᵥ R *ᵥ w + 2 * c * (∑ j, R k j * w j) + c ^ 2 * R k k := by
  have h1 : w ⬝ᵥ R *ᵥ Pi.single k c = c * ∑ j, R k j * w j := by
    simp only [mulVec_single, dotProduct, Finset.mul_sum, op_smul_eq_smul, Pi.smul_apply, smul_eq_mul, col_apply]
    refine Finset.sum_congr rfl fun i _ => ?_
    rw [hs k i]; ring
  have h2 : Pi.single k c ⬝ᵥ R *ᵥ w = c * ∑ j, R k j * w j := by
    rw [single_dotProduct]; rfl
  have h3 : Pi.single k c ⬝ᵥ R *ᵥ Pi.single k c = c ^ 2 * R k k := by
    rw [single_dotProduct, mulVec_single]
    simp only [op_smul_eq_smul, Pi.smul_apply, smul_eq_mul, col_apply]; ring
  rw [mulVec_add, add_dotProduct, dotProduct_add, dotProduct_add, h1, h2, h3]
  ring

/-- Elimination of index `k`. -/
noncomputable def schur (R : Matrix (Fin n) (Fin n) ℝ) (k : Fin n) : Matrix (Fin n) (Fin n) ℝ :=
  fun i j => R i j - R i k * R j k / R k k

theorem quad_schur (R : Matrix (Fin n) (Fin n) ℝ) (hs : ∀ i j, R i j = R j i) (k : Fin n) (w : Fin n → ℝ) :
    w ⬝ᵥ schur R k *ᵥ w = w ⬝ᵥ R *ᵥ w - (∑ j, R k j * w j) ^ 2 / R k k := by
  rw [quad_eq, quad_eq]
  have : (∑ j, R k j * w j) ^ 2 / R k k = ∑ i, ∑ j, w i * (R i k * R j k / R k k * w j) := by
    rw [sq, Finset.sum_mul_sum, Finset.sum_div]
    refine Finset.sum_congr rfl fun i _ => ?_
    rw [Finset.sum_div]
    refine Finset.sum_congr rfl fun j _ => ?_
    rw [hs k i, hs k j]; ring
  rw [this, ← Finset.sum_sub_distrib]
  refine Finset.sum_congr rfl fun i _ => ?_
  rw [← Finset.sum_sub_distrib]
  refine Finset.sum_congr rfl fun j _ => ?_
  unfold schur; ring

theorem PDfrom_step (R : Matrix (Fin n) (Fin n) ℝ) (hs : ∀ i j, R i j = R j i) (k : Fin n) :
    PDfrom k R ↔ 0 < R k k ∧ PDfrom (k + 1) (schur R k) := by
  constructor
  · intro h
    have hk : 0 < R k k := by
      have := h (Pi.single k 1) (by simp) (fun j hj => by
        have : j ≠ k := by rintro rfl; omega
        simp [this])
      have h3 := quad_add R hs k 0 1
      rw [zero_add] at h3
      rw [h3] at this
      simpa using this
    refine ⟨hk, fun w h0 hw => ?_⟩
    set c := -(∑ j, R k j * w j) / R k k with hc
    have hwk : w k = 0 := hw k (by omega)
    have hne : w + Pi.single k c ≠ 0 := by
      intro hz
      apply h0
      funext j
      by_cases hj : j = k
      · subst hj; exact hwk
      · have := congrFun hz j
        simpa [hj] using this
    have hz : ∀ j : Fin n, (j : Nat) < k → (w + Pi.single k c : Fin n → ℝ) j = 0 := by
      intro j hj
      have hjk : j ≠ k := by rintro rfl; omega
      simp [hjk, hw j (by omega)]
    have hpos := h _ hne hz
    rw [quad_add R hs] at hpos
    rw [quad_schur R hs]
    have : w ⬝ᵥ R *ᵥ w + 2 * c * (∑ j, R k j * w j) + c ^ 2 * R k k =
        w ⬝ᵥ R *ᵥ w - (∑ j, R k j * w j) ^ 2 / R k k := by
      rw [hc]; field_simp; ring
    rw [← this]; exact hpos
  · rintro ⟨hk, h⟩ w h0 hw
    set w0 := w - Pi.single k (w k) with hw0
    have hsplit : w = w0 + Pi.single k (w k) := by rw [hw0]; simp
    have hz : ∀ j : Fin n, (j : Nat) < k + 1 → w0 j = 0 := by
      intro j hj
      by_cases hjk : j = k
      · subst hjk; simp [hw0]
      · have : (j : Nat) < k := by
          have : (j : Nat) ≠ k := fun he => hjk (Fin.ext he)
          omega
        simp [hw0, hjk, hw j this]
    have hq : w ⬝ᵥ R *ᵥ w = w0 ⬝ᵥ schur R k *ᵥ w0 + ((∑ j, R k j * w0 j) + w k * R k k) ^ 2 / R k k := by
      rw [quad_schur R hs]
      conv_lhs => rw [hsplit]
      rw [quad_add R hs]
      field_simp; ring
    rw [hq]
    by_cases hw00 : w0 = 0
    · have hwk : w k ≠ 0 := by
        intro hwk; apply h0; rw [hsplit, hw00, hwk]; simp
      rw [hw00]
      simp
      positivity
    · have := h w0 hw00 hz
      positivity

/-- What remains to be decomposed after the columns before `k`. -/
noncomputable def resid (M A : Matrix (Fin n) (Fin n) ℝ) (k : Nat) : Matrix (Fin n) (Fin n) ℝ :=
  fun i j => lowerSym M i j - ∑ l ∈ Finset.univ.filter (fun l : Fin n => (l : Nat) < k), A i l * A j l

theorem resid_symm (M A : Matrix (Fin n) (Fin n) ℝ) (k : Nat) (i j : Fin n) : resid M A k i j = resid M A k j i := by
  unfold resid
  rw [lowerSym_symm]
  congr 1
  exact Finset.sum_congr rfl fun l _ => mul_comm _ _

theorem filter_succ (k : Fin n) : Finset.univ.filter (fun l : Fin n => (l : Nat) < k + 1) =
    insert k (Finset.univ.filter (fun l : Fin n => (l : Nat) < k)) := by
  ext l
  simp only [Finset.mem_filter, Finset.mem_univ, true_and, Finset.mem_insert, Fin.ext_iff]
  omega

theorem lltLoop_iff (M : Matrix (Fin n) (Fin n) ℝ) (d : Nat) : ∀ (k : Nat), n - k = d → k ≤ n →
    ∀ A : Matrix (Fin n) (Fin n) ℝ, (∀ i j : Fin n, k ≤ (j : Nat) → A i j = M i j) →
    ((lltLoop ((List.finRange n).drop k) A).isSome = true ↔ PDfrom k (resid M A k)) := by
  induction d with
  | zero =>
    intro k hk hkn A _
    have : k = n := by omega
    subst this
    rw [List.drop_eq_nil_of_le (by simp)]
    simp only [lltLoop, Option.isSome_some, true_iff]
    intro w h0 hw
    exact absurd (funext fun j => hw j j.2) h0
  | succ d ih =>
    intro k hk hkn A hA
    have hlt : k < n := by omega
    set kk : Fin n := ⟨k, hlt⟩ with hkk
    have hdrop : (List.finRange n).drop k = kk :: (List.finRange n).drop (k + 1) := by
      rw [List.drop_eq_getElem_cons (by simpa using hlt)]
      simp [hkk]
    rw [hdrop]
    simp only [lltLoop]
    have hfil : (Finset.univ.filter (· < kk) : Finset (Fin n)) = Finset.univ.filter (fun l : Fin n => (l : Nat) < k) := by
      ext l; simp [Fin.lt_def, hkk]
    have hx : A kk kk - ∑ j ∈ Finset.univ.filter (· < kk), A kk j ^ 2 = resid M A k kk kk := by
      unfold resid lowerSym
      rw [if_pos le_rfl, hA kk kk le_rfl, hfil]
      congr 1
      exact Finset.sum_congr rfl fun l _ => sq _
    have hstep := PDfrom_step (resid M A k) (resid_symm M A k) kk
    unfold lltStep
    dsimp only
    rw [hx]
    by_cases hp : resid M A k kk kk ≤ 0
    · rw [if_pos hp]
      simp only [Option.bind_none, Option.isSome_none, Bool.false_eq_true, false_iff]
      intro hpd
      exact absurd (hstep.1 hpd).1 (not_lt.2 hp)
    · rw [if_neg hp]
      have hp' : 0 < resid M A k kk kk := not_le.1 hp
      rw [Option.bind_some, ih (k + 1) (by omega) (by omega)]
      · rw [show (PDfrom k (resid M A k) ↔ _) from hstep]
        simp only [hp', true_and]
        apply PDfrom_congr
        intro i j hi hj
        have hik : i ≠ kk := by intro h; have := congrArg Fin.val h; simp [hkk] at this; omega
        have hjk : j ≠ kk := by intro h; have := congrArg Fin.val h; simp [hkk] at this; omega
        have hki : kk < i := by simp only [hkk, Fin.lt_def]; omega
        have hkj : kk < j := by simp only [hkk, Fin.lt_def]; omega
        have hcol : ∀ i : Fin n, kk < i → i ≠ kk →
            lltNext A kk (resid M A k kk kk) i kk = resid M A k i kk / √(resid M A k kk kk) := by
          intro i hi hne
          unfold lltNext
          rw [if_pos rfl, if_neg hne, if_pos hi]
          congr 1
          unfold resid lowerSym
          rw [if_pos hi.le, hA i kk le_rfl, hfil]
        have hrest : ∑ l ∈ Finset.univ.filter (fun l : Fin n => (l : Nat) < kk),
            lltNext A kk (resid M A k kk kk) i l * lltNext A kk (resid M A k kk kk) j l =
            ∑ l ∈ Finset.univ.filter (fun l : Fin n => (l : Nat) < k), A i l * A j l := by
          refine Finset.sum_congr rfl fun l hl => ?_
          have : l ≠ kk := by
            intro h
            rw [h] at hl
            simp [hkk] at hl
          unfold lltNext
          rw [if_neg this, if_neg this]
        have hl : resid M (lltNext A kk (resid M A k kk kk)) (k + 1) i j = lowerSym M i j -
            (resid M A k i kk / √(resid M A k kk kk) * (resid M A k j kk / √(resid M A k kk kk)) +
            ∑ l ∈ Finset.univ.filter (fun l : Fin n => (l : Nat) < k), A i l * A j l) := by
          have : ∀ (B : Matrix (Fin n) (Fin n) ℝ), resid M B (k + 1) i j = lowerSym M i j - (B i kk * B j kk +
              ∑ l ∈ Finset.univ.filter (fun l : Fin n => (l : Nat) < kk), B i l * B j l) := by
            intro B
            unfold resid
            rw [show k + 1 = (kk : Nat) + 1 from rfl, filter_succ kk, Finset.sum_insert (by simp [hkk])]
          rw [this, hcol i hki hik, hcol j hkj hjk, hrest]
        rw [hl]
        have hsq : √(resid M A k kk kk) * √(resid M A k kk kk) = resid M A k kk kk := Real.mul_self_sqrt hp'.le
        rw [div_mul_div_comm, hsq]
        have : schur (resid M A k) kk i j = (lowerSym M i j -
          ∑ l ∈ Finset.univ.filter (fun l : Fin n => (l : Nat) < k), A i l * A j l) -
            resid M A k i kk * resid M A k j kk / resid M A k kk kk := rfl
        rw [this]
        ring
      · intro i j hj
        have hjk : j ≠ kk := by intro h; have := congrArg Fin.val h; simp [hkk] at this; omega
        unfold lltNext
        rw [if_neg hjk]
        exact hA i j (by omega)

theorem isPositiveDefinite_iff (M : Matrix (Fin n) (Fin n) ℝ) :
    isPositiveDefinite M = true ↔ (lowerSym M).PosDef := by
  unfold isPositiveDefinite
  have h := lltLoop_iff M n 0 (by omega) (by omega) M (fun _ _ _ => rfl)
  rw [List.drop_zero] at h
  rw [h, posDef_iff_dotProduct_mulVec]
  have hr : resid M M 0 = lowerSym M := by
    funext i j; simp [resid]
  rw [hr]
  constructor
  · intro hp
    refine ⟨?_, fun {x} hx => by simpa using hp x hx (fun j hj => by omega)⟩
    ext i j
    simp [conjTranspose_apply, lowerSym_symm M i j]
  · rintro ⟨_, hp⟩ w h0 _
    have := hp h0
    simpa using this

end EigenExt

end Serpent
