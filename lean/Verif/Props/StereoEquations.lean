import Verif.Model.Stereo
import Mathlib.Tactic.FieldSimp
import Mathlib.Tactic.Linarith
import Mathlib.Tactic.FinCases
import Mathlib.Tactic.NormNum
import Mathlib.Algebra.Order.Field.Rat
import Mathlib.LinearAlgebra.Matrix.Notation

/-!
# C56: stereo projection and backprojection
-/

namespace Serpent

namespace Stereo

variable {K : Type} [Field K] [LinearOrder K] [IsStrictOrderedRing K]

/-! ### Specification: a pair of pinhole cameras -/

/-- Horizontal and vertical coordinate of the image of a point seen by a pinhole camera at `(offset, 0, 0)`. -/
def pinhole (fx fy cx cy offset : K) (p : Fin 3 → K) : K × K :=
  (cx + fx * (p 0 - offset) / p 2, cy + fy * p 1 / p 2)

/-- The feature `(u left, u right, v)` is the image of the point in the left camera at the origin and in the right camera at
distance `b` to the right, with intrinsic parameters from `A`. -/
def Sees (A : Matrix (Fin 3) (Fin 3) K) (b : K) (p c : Fin 3 → K) : Prop :=
  pinhole (A 0 0) (A 1 1) (A 0 2) (A 1 2) 0 p = (c 0, c 2) ∧ pinhole (A 0 0) (A 1 1) (A 0 2) (A 1 2) b p = (c 1, c 2)

/-! ### Theorems -/

/-- C56. Backprojection gives the point that is seen at the feature: for a positive focal length and baseline, the result is
in front of the cameras exactly if the disparity is positive, it is seen at the feature, and it is the only such point. -/
theorem C56_backproject (A : Matrix (Fin 3) (Fin 3) K) (b : K) (c : Fin 3 → K) (hfx : 0 < A 0 0) (hfy : 0 < A 1 1)
    (hb : 0 < b) (hd : c 0 ≠ c 1) :
    ∃ p, backproject c A b = .ok p ∧ Sees A b p c ∧ p 2 ≠ 0 ∧ (0 < p 2 ↔ c 1 < c 0) ∧
      ∀ q, q 2 ≠ 0 → Sees A b q c → q = p := by
  have hd' : c 0 - c 1 ≠ 0 := sub_ne_zero.2 hd
  have hfx' := hfx.ne'
  have hfy' := hfy.ne'
  have hb' := hb.ne'
  refine ⟨_, by unfold backproject; rw [if_neg hd'], ⟨?_, ?_⟩, ?_, ?_, ?_⟩
  · unfold pinhole
    simp only [Matrix.cons_val_zero, Matrix.cons_val_one, Matrix.cons_val]
    refine Prod.ext ?_ ?_
    · simp only; field_simp; ring
    · simp only; field_simp; ring
  · unfold pinhole
    simp only [Matrix.cons_val_zero, Matrix.cons_val_one, Matrix.cons_val]
    refine Prod.ext ?_ ?_
    · simp only; field_simp; ring
    · simp only; field_simp; ring
  · simp only [Matrix.cons_val]
    exact div_ne_zero (mul_ne_zero hb' hfx') hd'
  · simp only [Matrix.cons_val]
    rw [div_pos_iff_of_pos_left (mul_pos hb hfx), sub_pos]
  · intro q hq ⟨h1, h2⟩
    unfold pinhole at h1 h2
    rw [Prod.mk.injEq] at h1 h2
    obtain ⟨e0, e2⟩ := h1
    obtain ⟨e1, -⟩ := h2
    have z : q 2 * (c 0 - c 1) = b * A 0 0 := by
      rw [← e0, ← e1]; field_simp; ring
    have x : A 0 0 * q 0 = (c 0 - A 0 2) * q 2 := by
      rw [← e0]; field_simp; ring
    have y : A 1 1 * q 1 = (c 2 - A 1 2) * q 2 := by
      rw [← e2]; field_simp; ring
    funext i
    fin_cases i
    · simp only [Fin.zero_eta, Matrix.cons_val_zero]
      rw [eq_div_iff hd']
      apply mul_left_cancel₀ hfx'
      linear_combination (c 0 - c 1) * x + (c 0 - A 0 2) * z
    · simp only [Fin.mk_one, Matrix.cons_val_one, Matrix.cons_val_zero]
      rw [eq_div_iff hd']
      apply mul_left_cancel₀ hfy'
      field_simp
      linear_combination (c 0 - c 1) * y + (c 2 - A 1 2) * z
    · simp only [Fin.reduceFinMk, Matrix.cons_val]
      rw [eq_div_iff hd']
      exact z

omit [LinearOrder K] [IsStrictOrderedRing K] in
/-- C56. Backprojection of a feature without disparity throws, and of every other feature does not. -/
theorem C56_zero_disparity [LinearOrder K] (A : Matrix (Fin 3) (Fin 3) K) (b : K) (c : Fin 3 → K) :
    (backproject c A b = .throws ↔ c 0 = c 1) ∧ backproject c A b ≠ .ub := by
  unfold backproject
  by_cases h : c 0 - c 1 = 0
  · exact ⟨by simp [sub_eq_zero.1 h], by simp [h]⟩
  · exact ⟨by simp [h, sub_ne_zero.1 h], by simp [h]⟩

omit [IsStrictOrderedRing K] in
/-- C56 fails: projection reads the fourth coordinate of a point with three, for all cameras and points. -/
theorem C56_fails_project (A : Matrix (Fin 3) (Fin 3) K) (b : K) (p : Fin 3 → K) : project p A b = .ub := rfl

omit [IsStrictOrderedRing K] in
/-- C56, projection that reads the third coordinate: the feature at which a point in front of the cameras is seen; other points
are refused. Missing: the code reads a coordinate that does not exist. -/
theorem C56_project_partial (A : Matrix (Fin 3) (Fin 3) K) (b : K) (p : Fin 3 → K) :
    (p 2 ≤ 0 → projectAt 2 p A b = .throws) ∧ (0 < p 2 → ∃ c, projectAt 2 p A b = .ok c ∧ Sees A b p c) := by
  have e : projectAt 2 p A b = if p 2 ≤ 0 then .throws else
      .ok fun i => (![A 0 2, A 0 2, A 1 2] : Fin 3 → K) i +
        (![A 0 0 * p 0, A 0 0 * (p 0 - b), A 1 1 * p 1] : Fin 3 → K) i / p 2 := rfl
  refine ⟨fun h => by rw [e, if_pos h], fun h => ⟨_, by rw [e, if_neg (not_le.2 h)], ?_, ?_⟩⟩
  · simp [pinhole]
  · simp [pinhole]

/-- C56, with the projection that reads the third coordinate: the two functions are inverse to each other. Missing: the code
reads a coordinate that does not exist. -/
theorem C56_inverse_partial (A : Matrix (Fin 3) (Fin 3) K) (b : K) (hfx : 0 < A 0 0) (hfy : 0 < A 1 1) (hb : 0 < b) :
    (∀ c : Fin 3 → K, c 1 < c 0 → (backproject c A b >>= fun p => projectAt 2 p A b) = .ok c) ∧
    (∀ p : Fin 3 → K, 0 < p 2 → (projectAt 2 p A b >>= fun c => backproject c A b) = .ok p) := by
  constructor
  · intro c hc
    obtain ⟨p, h1, h2, -, h3, -⟩ := C56_backproject A b c hfx hfy hb hc.ne'
    obtain ⟨c', h4, h5⟩ := (C56_project_partial A b p).2 (h3.2 hc)
    rw [h1, Outcome.bind_ok, h4]
    congr 1
    have e1 := h2.1.symm.trans h5.1
    have e2 := h2.2.symm.trans h5.2
    rw [Prod.mk.injEq] at e1 e2
    funext i
    fin_cases i
    · exact e1.1.symm
    · exact e2.1.symm
    · exact e1.2.symm
  · intro p hp
    obtain ⟨c, h1, h2⟩ := (C56_project_partial A b p).2 hp
    have hd : c 1 < c 0 := by
      have e1 := h2.1
      have e2 := h2.2
      unfold pinhole at e1 e2
      rw [Prod.mk.injEq] at e1 e2
      rw [← e1.1, ← e2.1, add_lt_add_iff_left, div_lt_div_iff_of_pos_right hp, mul_lt_mul_iff_right₀ hfx]
      linarith
    obtain ⟨q, h3, -, -, -, h4⟩ := C56_backproject A b c hfx hfy hb hd.ne'
    rw [h1, Outcome.bind_ok, h3, h4 p hp.ne' h2]

/-- A camera with focal length 500 and a baseline of 1/10, and a point 5 in front of it. -/
example : backproject ![(330 : ℚ), 320, 260] !![500, 0, 320; 0, 500, 240; 0, 0, 1] (1/10) = .ok ![1/10, 1/5, 5] := by
  unfold backproject
  rw [if_neg (by norm_num)]
  congr 1
  funext i
  fin_cases i <;> simp [Matrix.cons_val] <;> norm_num

end Stereo

end Serpent
