import Verif.Model.Registration
import Verif.Props.EigenGeometry
import Verif.Props.EigenCovariance

/-!
# The published registration result (C99)
-/

namespace Serpent

namespace Lidar

open EigenExt Matrix

variable {K : Type} [Field K]

theorem allFinite_some {K : Type} (m : Mat6 K) : allFinite (fun i j => some (m i j)) = some m :=
  dif_pos (c := ∀ i j, (some (m i j)).isSome = true) fun _ _ => rfl

/-- C99. The published motion is the motion of the lidar, seen from the body: a point fixed to the lidar frame and its image
correspond to each other in both frames; the stamp and the frame are those given. -/
theorem C99_motion {X : Iso K} (hX : Rigid X) (adj : Mat6 K) (frame : String) (T : Iso K) (C : Ext6 K) (stamp : Int) (p : Fin 3 → K) :
    (refinedTransform X adj frame T C stamp).pose.apply (X.apply p) = X.apply (T.apply p) ∧
      (refinedTransform X adj frame T C stamp).stamp = stamp ∧ (refinedTransform X adj frame T C stamp).frame = frame := by
  refine ⟨?_, rfl, rfl⟩
  show (X * T * X⁻¹).apply (X.apply p) = _
  rw [← Iso.apply_mul, Iso.mul_assoc, hX.inv_mul, Iso.mul_one, Iso.apply_mul]

/-- C99. A finite covariance is that of the error moved by the adjoint of the body-to-lidar transform: for each pair of directions
(rotation and translation), the covariance of the error along `u` and `v` in the body frame is that along the directions moved back
by the transpose. The message holds translation before rotation. -/
theorem C99_covariance (X : Iso K) (frame : String) (T : Iso K) (m : Mat6 K) (stamp : Int) :
    ∃ m' : Mat6 K, (∀ i j, (refinedTransform X (transformAdjoint X) frame T (fun i j => some (m i j)) stamp).covariance i j =
        some (m' i.swap j.swap)) ∧
      ∀ u v, u ⬝ᵥ m' *ᵥ v = ((transformAdjoint X)ᵀ *ᵥ u) ⬝ᵥ m *ᵥ ((transformAdjoint X)ᵀ *ᵥ v) := by
  refine ⟨changeCovarianceFrameAdj m (transformAdjoint X), fun i j => ?_, fun u v => ?_⟩
  · unfold refinedTransform
    rw [allFinite_some]
    rfl
  · unfold changeCovarianceFrameAdj
    rw [← Matrix.mulVec_mulVec, ← Matrix.mulVec_mulVec, Matrix.dotProduct_mulVec, ← Matrix.mulVec_transpose]

/-- C99. A positive semidefinite covariance stays so, and a positive definite one too. -/
theorem C99_valid {X : Iso ℝ} (hX : Rigid X) (frame : String) (T : Iso ℝ) (m : Mat6 ℝ) (stamp : Int) :
    ∃ m' : Mat6 ℝ, (∀ i j, (refinedTransform X (transformAdjoint X) frame T (fun i j => some (m i j)) stamp).covariance i j =
        some (m' i j)) ∧ (m.PosSemidef → m'.PosSemidef) ∧ (m.PosDef → m'.PosDef) := by
  refine ⟨(changeCovarianceFrame m X).submatrix Sum.swap Sum.swap, fun i j => ?_, fun h => ?_, fun h => ?_⟩
  · unfold refinedTransform
    rw [allFinite_some]
    rfl
  · exact (C39_semidefinite X m h).submatrix _
  · have := (C39_definite hX m h)
    have e : (Sum.swap : Fin 3 ⊕ Fin 3 → Fin 3 ⊕ Fin 3) = Equiv.sumComm (Fin 3) (Fin 3) := rfl
    rw [e]
    exact this.submatrix (Equiv.injective _)

/-- C99. A covariance that is not finite is published as it is, in the order of the message. -/
theorem C99_infinite (X : Iso K) (adj : Mat6 K) (frame : String) (T : Iso K) (C : Ext6 K) (stamp : Int) (i j : Fin 3 ⊕ Fin 3)
    (h : C i j = none) (k l : Fin 3 ⊕ Fin 3) : (refinedTransform X adj frame T C stamp).covariance k l = C k.swap l.swap := by
  have h' : allFinite C = none := by
    unfold allFinite
    rw [dif_neg]
    intro h'
    have := h' i j
    rw [h] at this
    cases this
  unfold refinedTransform
  rw [h']
  rfl

omit [Field K] in
/-- The exchange of blocks in the model is `reorder_covariance` with boundary 3 of the matrix with six rows and columns. -/
theorem C99_reorder (C : Ext6 K) :
    reorderCovariance (C.submatrix finSumFinEquiv.symm finSumFinEquiv.symm) 3 =
      .ok ((C.submatrix Sum.swap Sum.swap).submatrix finSumFinEquiv.symm finSumFinEquiv.symm) := by
  rw [reorder_eq _ (by decide) (by decide)]
  congr 1
  have hm : ∀ i : Fin 6, (finSumFinEquiv (m := 3) (n := 3)).symm (moved 3 i) = (finSumFinEquiv.symm i).swap := by decide
  funext i j
  show C (finSumFinEquiv.symm (moved 3 i)) (finSumFinEquiv.symm (moved 3 j)) = _
  rw [hm, hm]
  rfl

/-- A quarter turn and an identity covariance, with one infinite entry. -/
example : (refinedTransform (K := ℚ) ⟨!![0, -1, 0; 1, 0, 0; 0, 0, 1], ![1, 2, 3]⟩ 1 "body" ⟨1, ![1, 0, 0]⟩
    (fun i j => if i = .inl 0 ∧ j = .inl 0 then none else some 0) 5).covariance (.inr 0) (.inr 0) = none := by
  exact (C99_infinite _ _ _ _ _ _ (.inl 0) (.inl 0) (if_pos ⟨rfl, rfl⟩) _ _).trans (if_pos ⟨rfl, rfl⟩)

end Lidar

end Serpent
