import Verif.Spec.Evaluation
import Verif.Lemmas.Trajectory
import Mathlib.Analysis.Matrix.Spectrum
import Mathlib.Data.Fin.Tuple.Sort
import Mathlib.LinearAlgebra.Matrix.Trace

/-!
# Lemmas about the evaluation of velocities and of registration covariances
-/

namespace Serpent

namespace Trajectory

open EigenExt Matrix

variable {lib : Lib} {eig : Eig}

/-- There are functions that meet the contract of `eig`. -/
theorem exists_lawful_eig : ∃ eig : Eig, eig.Lawful := by
  have key : ∀ C : Matrix (Fin 3) (Fin 3) ℝ, ∃ vd : Matrix (Fin 3) (Fin 3) ℝ × (Fin 3 → ℝ), C.IsSymm →
      vd.1ᵀ * vd.1 = 1 ∧ (∀ i, C *ᵥ vd.1.col i = vd.2 i • vd.1.col i) ∧ Monotone vd.2 := by
    intro C
    by_cases hC : C.IsSymm
    · have hH : C.IsHermitian := by
        rw [Matrix.IsHermitian, Matrix.conjTranspose_eq_transpose_of_trivial]
        exact hC
      let U : Matrix (Fin 3) (Fin 3) ℝ := hH.eigenvectorUnitary
      have hU : Uᵀ * U = 1 := by
        have := (Matrix.mem_unitaryGroup_iff').1 hH.eigenvectorUnitary.2
        rw [Matrix.star_eq_conjTranspose, Matrix.conjTranspose_eq_transpose_of_trivial] at this
        exact this
      let σ := Tuple.sort hH.eigenvalues
      refine ⟨(U.submatrix id σ, hH.eigenvalues ∘ σ), fun _ => ⟨?_, fun i => ?_, Tuple.monotone_sort hH.eigenvalues⟩⟩
      · show (U.submatrix id σ)ᵀ * U.submatrix id σ = 1
        rw [Matrix.transpose_submatrix]
        refine (Matrix.submatrix_mul_equiv Uᵀ U σ (Equiv.refl _) σ).trans ?_
        rw [hU]
        exact Matrix.submatrix_one_equiv σ
      · exact hH.mulVec_eigenvectorBasis (σ i)
    · exact ⟨(0, 0), fun h => absurd h hC⟩
  choose eig h using key
  exact ⟨eig, fun C hC => (h C hC).1, fun C hC => (h C hC).2.1, fun C hC => (h C hC).2.2⟩

theorem norm3_dot (v : Fin 3 → ℝ) : norm3 v ^ 2 = v ⬝ᵥ v := by
  rw [norm3_sq]
  simp [dotProduct, Fin.sum_univ_three, pow_two]

theorem norm3_lt_one (v : Fin 3 → ℝ) : norm3 v < 1 ↔ v ⬝ᵥ v < 1 := by
  rw [← norm3_dot, sq_lt_one_iff₀ (norm3_nonneg v)]

/-- An orthogonal matrix keeps the length. -/
theorem norm3_orthogonal {V : Matrix (Fin 3) (Fin 3) ℝ} (hV : Vᵀ * V = 1) (x : Fin 3 → ℝ) : V *ᵥ x ⬝ᵥ V *ᵥ x = x ⬝ᵥ x := by
  rw [Matrix.dotProduct_mulVec, Matrix.vecMul_mulVec, hV, Matrix.vecMul_one]

theorem Eig.Lawful.entry (h : eig.Lawful) {c : Fin 3 → ℝ} (k i : Fin 3) :
    c k * (eig (diagonal c)).1 k i = (eig (diagonal c)).2 i * (eig (diagonal c)).1 k i := by
  have h1 := congrFun (h.eigen (diagonal c) (Matrix.isSymm_diagonal c) i) k
  rw [Matrix.mulVec_diagonal] at h1
  simpa using h1

theorem Eig.Lawful.col_ne (h : eig.Lawful) {C : Matrix (Fin 3) (Fin 3) ℝ} (hC : C.IsSymm) (i : Fin 3) : ∃ k, (eig C).1 k i ≠ 0 := by
  by_contra hn
  push Not at hn
  have h1 := congrFun (congrFun (h.orthonormal C hC) i) i
  rw [Matrix.mul_apply] at h1
  simp [hn] at h1

theorem Eig.Lawful.row_ne (h : eig.Lawful) {C : Matrix (Fin 3) (Fin 3) ℝ} (hC : C.IsSymm) (k : Fin 3) : ∃ i, (eig C).1 k i ≠ 0 := by
  by_contra hn
  push Not at hn
  have h0 : (eig C).1 * (eig C).1ᵀ = 1 := mul_eq_one_comm.1 (h.orthonormal C hC)
  have h1 := congrFun (congrFun h0 k) k
  rw [Matrix.mul_apply] at h1
  simp [hn] at h1

theorem Eig.Lawful.decomposition (h : eig.Lawful) {C : Matrix (Fin 3) (Fin 3) ℝ} (hC : C.IsSymm) :
    C = (eig C).1 * diagonal (eig C).2 * (eig C).1ᵀ := by
  have h1 : C * (eig C).1 = (eig C).1 * diagonal (eig C).2 := by
    ext k i
    rw [Matrix.mul_diagonal, mul_comm ((eig C).1 k i)]
    exact congrFun (h.eigen C hC i) k
  rw [← h1, Matrix.mul_assoc, mul_eq_one_comm.1 (h.orthonormal C hC), Matrix.mul_one]

theorem Eig.Lawful.trace (h : eig.Lawful) {C : Matrix (Fin 3) (Fin 3) ℝ} (hC : C.IsSymm) :
    C.trace = ∑ i, (eig C).2 i := by
  conv_lhs => rw [h.decomposition hC]
  rw [Matrix.trace_mul_comm, ← Matrix.mul_assoc, h.orthonormal C hC, Matrix.one_mul, Matrix.trace_diagonal]

/-- The eigenvalues of an ascending diagonal matrix are its diagonal. -/
theorem Eig.Lawful.ascending_diagonal (h : eig.Lawful) {c : Fin 3 → ℝ} (h1 : c 0 ≤ c 1) (h2 : c 1 ≤ c 2) : (eig (diagonal c)).2 = c := by
  have hs := Matrix.isSymm_diagonal c
  have hd : ∀ i, ∃ k, (eig (diagonal c)).2 i = c k := fun i => by
    obtain ⟨k, hk⟩ := h.col_ne hs i
    exact ⟨k, (mul_right_cancel₀ hk (h.entry k i)).symm⟩
  have hc : ∀ k, ∃ i, c k = (eig (diagonal c)).2 i := fun k => by
    obtain ⟨i, hi⟩ := h.row_ne hs k
    exact ⟨i, mul_right_cancel₀ hi (h.entry k i)⟩
  have hm := h.ascending _ hs
  have ht := h.trace hs
  generalize (eig (diagonal c)).2 = d at *
  rw [Matrix.trace_diagonal, Fin.sum_univ_three, Fin.sum_univ_three] at ht
  have hcm : ∀ k, c 0 ≤ c k ∧ c k ≤ c 2 := by
    intro k
    fin_cases k
    · exact ⟨le_rfl, h1.trans h2⟩
    · exact ⟨h1, h2⟩
    · exact ⟨h1.trans h2, le_rfl⟩
  have h0 : d 0 = c 0 := by
    refine le_antisymm ?_ ?_
    · obtain ⟨i, hi⟩ := hc 0
      rw [hi]
      exact hm (Fin.zero_le i)
    · obtain ⟨k, hk⟩ := hd 0
      rw [hk]
      exact (hcm k).1
  have h3 : d 2 = c 2 := by
    refine le_antisymm ?_ ?_
    · obtain ⟨k, hk⟩ := hd 2
      rw [hk]
      exact (hcm k).2
    · obtain ⟨i, hi⟩ := hc 2
      rw [hi]
      exact hm (Fin.le_last i)
  funext i
  fin_cases i
  · exact h0
  · show d 1 = c 1
    linarith
  · exact h3

theorem clipped_of_pos {d : Fin 3 → ℝ} (h : ∀ i, 0 < d i) : clipped d = d := by
  funext i
  unfold clipped
  rw [if_neg]
  rintro ⟨j, hj⟩
  exact absurd hj (not_lt.2 (h j).le)

/-- With positive eigenvalues, the squared length of what is plotted. -/
theorem normalisedError_pos (h : eig.Lawful) {C : Matrix (Fin 3) (Fin 3) ℝ} (hC : C.IsSymm) (hd : ∀ i, 0 < (eig C).2 i) (e : Fin 3 → ℝ) :
    ∃ w, normalisedError eig C e = some w ∧ norm3 w ^ 2 = ∑ i, e i ^ 2 / (2 ^ 2 * (eig C).2 i) := by
  refine ⟨_, by rw [normalisedError, clipped_of_pos hd, if_neg]; rintro ⟨i, hi⟩; exact (hd i).ne' hi, ?_⟩
  rw [norm3_dot, norm3_orthogonal (h.orthonormal C hC), dotProduct]
  refine Finset.sum_congr rfl fun i _ => ?_
  have h1 : Real.sqrt ((eig C).2 i) ^ 2 = (eig C).2 i := Real.sq_sqrt (hd i).le
  have h2 := Real.sqrt_pos.2 (hd i)
  rw [← h1]
  field_simp
  rw [Real.sqrt_sq h2.le]

theorem within_diagonal {c : Fin 3 → ℝ} (hc : ∀ i, c i ≠ 0) (e : Fin 3 → ℝ) :
    Within (diagonal c) e ↔ ∑ i, e i ^ 2 / (2 ^ 2 * c i) < 1 := by
  have h1 : (diagonal c : Matrix (Fin 3) (Fin 3) ℝ)⁻¹ = diagonal fun i => (c i)⁻¹ := by
    refine Matrix.inv_eq_right_inv ?_
    rw [Matrix.diagonal_mul_diagonal, ← Matrix.diagonal_one]
    congr 1
    funext i
    exact mul_inv_cancel₀ (hc i)
  have h2 : ∑ i, e i ^ 2 / (2 ^ 2 * c i) = (e ⬝ᵥ (diagonal (fun i => (c i)⁻¹) *ᵥ e)) / 2 ^ 2 := by
    rw [dotProduct, Finset.sum_div]
    refine Finset.sum_congr rfl fun i _ => ?_
    rw [Matrix.mulVec_diagonal]
    field_simp [hc i]
  unfold Within
  rw [h1, h2, div_lt_one (by norm_num)]

theorem normaliseLoop_spec {es : List (Fin 3 → ℝ)} {cs : List (Matrix (Fin 3) (Fin 3) ℝ)} (hl : es.length = cs.length) :
    ∀ (n i : Nat) (last : Option (Option (Fin 3 → ℝ))) (h : i + (n + 1) ≤ es.length),
      normaliseLoop eig es cs (n + 1) i last = .ok (some (normalisedError eig (cs[i + n]'(by omega)) (es[i + n]'(by omega))))
  | 0, i, last, h => by
    have h1 : at' es i = .ok (es[i]'(by omega)) := by
      unfold at'
      rw [List.getElem?_eq_getElem (by omega)]
    have h2 : at' cs i = .ok (cs[i]'(by omega)) := by
      unfold at'
      rw [List.getElem?_eq_getElem (by omega)]
    simp only [normaliseLoop, h1, h2, Outcome.bind_ok, Nat.add_zero]
  | n + 1, i, last, h => by
    have h1 : at' es i = .ok (es[i]'(by omega)) := by
      unfold at'
      rw [List.getElem?_eq_getElem (by omega)]
    have h2 : at' cs i = .ok (cs[i]'(by omega)) := by
      unfold at'
      rw [List.getElem?_eq_getElem (by omega)]
    rw [normaliseLoop, h1, h2, Outcome.bind_ok, Outcome.bind_ok, normaliseLoop_spec hl n (i + 1) _ (by omega)]
    simp only [Nat.add_right_comm i 1 n, Nat.add_assoc i n 1]

/-- The loop stops with an error if it is to run past the end. -/
theorem normaliseLoop_throws {es : List (Fin 3 → ℝ)} {cs : List (Matrix (Fin 3) (Fin 3) ℝ)} (hl : es.length = cs.length) :
    ∀ (n i : Nat) (last : Option (Option (Fin 3 → ℝ))), es.length < i + n → i ≤ es.length → normaliseLoop eig es cs n i last = .throws
  | 0, i, last, h, h' => by omega
  | n + 1, i, last, h, h' => by
    rw [normaliseLoop]
    by_cases hi : i < es.length
    · have h1 : at' es i = .ok es[i] := by
        unfold at'
        rw [List.getElem?_eq_getElem hi]
      have h2 : at' cs i = .ok (cs[i]'(by omega)) := by
        unfold at'
        rw [List.getElem?_eq_getElem (by omega)]
      rw [h1, h2, Outcome.bind_ok, Outcome.bind_ok]
      exact normaliseLoop_throws hl n (i + 1) _ (by omega) (by omega)
    · have h1 : at' es i = .throws := by
        unfold at'
        rw [List.getElem?_eq_none (by omega)]
      rw [h1]
      rfl

end Trajectory

end Serpent
