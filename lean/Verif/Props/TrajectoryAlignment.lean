import Verif.Props.Trajectory
import Verif.Lemmas.TrajectoryAlignment

/-!
# C122: aligning trajectories; the report for an odometry (C121)
-/

namespace Serpent

namespace Trajectory

open EigenExt Matrix

variable {lib : Lib}

/-! ### To the first pose -/

/-- Aligning to the first pose moves the trajectory as a rigid body so that its first pose is the reference at its time. -/
theorem C122_align_first (hl : lib.Lawful) {gt l l' : Traj} (hv : Valid gt) (hg : Increasing gt) (hvl : Valid l)
    (h : alignToFirst lib gt l = .ok l') :
    ∃ M, Rigid M ∧ MovedBy M l l' ∧ Valid l' ∧ ∃ x, l'.head? = some x ∧ IsReference lib gt x.1 (poseToMatrix x.2) := by
  match l, h with
  | (t, p) :: ps, h =>
    obtain ⟨i, -, h⟩ := bind_eq_ok h
    obtain ⟨G, hG, h⟩ := bind_eq_ok h
    obtain ⟨h1, h2⟩ := poseReference_isReference hl hv hg hG
    obtain ⟨l'', M, h3, h4, h5, h6, h7, h8⟩ := C119_recompute_is_a_rigid_motion hl (l := (t, p) :: ps) hvl (matrixToPose_valid hl h2) rfl
    rw [h] at h3
    obtain rfl := Outcome.ok.inj h3
    refine ⟨M, h4, h6, h7, _, h8, ?_⟩
    rw [poseToMatrix_matrixToPose hl h2]
    exact h1

/-- It can be done if the first pose is within the time of the reference. -/
theorem C122_align_first_succeeds {gt l : Traj} {a b x : ℝ × Pose} (ha : gt.head? = some a) (hb : gt.getLast? = some b)
    (hx : l.head? = some x) (h1 : a.1 ≤ x.1) (h2 : x.1 ≤ b.1) : ∃ l', alignToFirst lib gt l = .ok l' := by
  match l, hx with
  | (t, p) :: ps, hx =>
    obtain rfl := Option.some.inj hx
    obtain ⟨j, hj, ⟨G, hG⟩, -⟩ := reference_succeeds (exact := poseToMatrix) (interp := interpTransform lib)
      (fun t1 t2 a b t h1 h2 => interpTransform_between a b h1.le h2.le (h1.trans h2)) ha hb h1 h2 (i := 0)
      fun k _ hk => absurd hk (Nat.not_lt_zero k)
    exact bind_ok_of hj (bind_ok_of (a := G) hG ⟨_, rfl⟩)

/-! ### With an optimisation -/

theorem forall₂_head {α β : Type} {P : α → β → Prop} {l : List α} {l' : List β} (h : List.Forall₂ P l l') {x : α} {y : β}
    (hx : l.head? = some x) (hy : l'.head? = some y) : P x y := by
  cases h with
  | nil => exact absurd hx (by simp)
  | cons h1 _ =>
    obtain rfl := Option.some.inj hx
    obtain rfl := Option.some.inj hy
    exact h1

theorem movedBy_trans {A B : Iso ℝ} {l m n : Traj} (h : MovedBy A l m) (h' : MovedBy (B * A) l n) : MovedBy B m n := by
  induction h generalizing n with
  | nil => cases h'; exact List.Forall₂.nil
  | @cons x y l m hx h ih =>
    cases h' with
    | cons hz h' =>
      refine List.Forall₂.cons ⟨hz.1.trans hx.1.symm, ?_⟩ (ih h')
      rw [hz.2, hx.2, Iso.mul_assoc]

theorem movedBy_positions {G : Iso ℝ} {l l' : Traj} (h : MovedBy G l l') : positions l' = (positions l).map fun p => G.R *ᵥ p + G.t := by
  induction h with
  | nil => rfl
  | @cons x y l l' hx h ih =>
    unfold positions at *
    simp only [List.map_cons, ih]
    rw [show y.2.position = G.R *ᵥ x.2.position + G.t from congrArg Iso.t hx.2]

/-- The trajectory first put on the reference's first pose, the reference at its times, and the correction found for these. -/
structure Aligned (lib : Lib) (o : OptParams) (gt l l' : Traj) : Prop where
  out : ∃ (guess ref : Traj) (M C : Iso ℝ),
    -- the reference at the times of the trajectory
    List.Forall₂ (fun x y => y.1 = x.1 ∧ IsReference lib gt x.1 (poseToMatrix y.2)) l ref ∧
    -- the initial guess: the first pose is the reference's
    Rigid M ∧ MovedBy M l guess ∧ (guess.map Prod.snd).head? = (ref.map Prod.snd).head? ∧
    -- the correction
    Rigid C ∧ C.R = expRotation (alignLoop o ((positions guess).zip (positions ref)) o.iterations).r ∧
    C.t = (alignLoop o ((positions guess).zip (positions ref)) o.iterations).t ∧
    -- the result
    MovedBy C guess l' ∧ MovedBy (C * M) l l' ∧ Valid l'

/-- The result is the trajectory moved as a rigid body: put on the first pose of the reference, then corrected by the rotation and the
translation the loop found. -/
theorem C122_align_trajectory (hl : lib.Lawful) {o : OptParams} {gt l l' : Traj} (hv : Valid gt) (hg : Increasing gt) (hvl : Valid l)
    (h : alignTrajectory lib o gt l = .ok l') : Aligned lib o gt l l' := by
  obtain ⟨ref, href, h⟩ := bind_eq_ok h
  obtain ⟨first, hfirst, h⟩ := bind_eq_ok h
  obtain ⟨guess, hguess, h⟩ := bind_eq_ok h
  obtain ⟨h1, h2⟩ := C120_interpolation_is_the_reference hl hv hg href
  rw [at'_ok] at hfirst
  have hfv : first.2.Valid := h2 _ (List.mem_of_getElem? hfirst)
  match l, hguess, h, h1 with
  | (s, p) :: ps, hguess, h, h1 =>
    obtain ⟨guess', M, h3, h4, h5, h6, h7, h8⟩ := C119_recompute_is_a_rigid_motion hl (l := (s, p) :: ps) hvl hfv rfl
    rw [hguess] at h3
    obtain rfl := Outcome.ok.inj h3
    unfold applyCorrection at h
    split at h
    · exact absurd h (by simp)
    · rename_i R hR
      have hRe := alignLoop_R _ _ _ hR
      set st := alignLoop o ((positions guess).zip (positions ref)) o.iterations with hst
      have hrig : Rigid (⟨R, st.t⟩ : Iso ℝ) := rigid_of (hRe ▸ expRotation_rotation _) _
      have hrig' : Rigid ((⟨R, st.t⟩ : Iso ℝ) * poseToMatrix first.2) := hrig.mul hfv.rigid
      obtain ⟨l'', N, k3, k4, k5, k6, k7, k8⟩ :=
        C119_recompute_is_a_rigid_motion hl (l := (s, p) :: ps) hvl (matrixToPose_valid hl hrig') rfl
      rw [h] at k3
      obtain rfl := Outcome.ok.inj k3
      rw [poseToMatrix_matrixToPose hl hrig', ← h5, ← Iso.mul_assoc] at k5
      have hp := (hvl _ List.mem_cons_self).rigid
      have eN : N = (⟨R, st.t⟩ : Iso ℝ) * M := by
        have := congrArg (· * (poseToMatrix p)⁻¹) k5
        simpa only [Iso.mul_assoc, hp.mul_inv, Iso.mul_one] using this
      subst eN
      refine ⟨guess, ref, M, ⟨R, st.t⟩, ?_, h4, h6, ?_, hrig, hRe, rfl, movedBy_trans h6 k6, k6, k7⟩
      · have : List.Forall₂ (fun t y => y.1 = t ∧ IsReference lib gt t (poseToMatrix y.2)) (((s, p) :: ps).map Prod.fst) ref := h1
        rw [List.forall₂_map_left_iff] at this
        exact this
      · rw [List.head?_map, List.head?_map, h8, List.head?_eq_getElem?, hfirst]
        rfl

/-- The positions of the result are those the loss is about: the positions of the guess, rotated and shifted by the correction. -/
theorem C122_aligned_positions {o : OptParams} {gt l l' : Traj} (h : Aligned lib o gt l l') :
    ∃ (guess ref : Traj), List.Forall₂ (fun x y => y.1 = x.1 ∧ IsReference lib gt x.1 (poseToMatrix y.2)) l ref ∧
      positions l' = (positions guess).map fun p =>
        expRotation (alignLoop o ((positions guess).zip (positions ref)) o.iterations).r *ᵥ p +
        (alignLoop o ((positions guess).zip (positions ref)) o.iterations).t := by
  obtain ⟨guess, ref, M, C, h1, -, -, -, -, h2, h3, h4, -, -⟩ := h.out
  refine ⟨guess, ref, h1, ?_⟩
  rw [movedBy_positions h4, h2, h3]

/-- In one iteration no component of the correction changes by more than allowed. -/
theorem C122_step_bounded (o : OptParams) (hr : 0 ≤ o.maxRChange) (ht : 0 ≤ o.maxTChange) (es : List ((Fin 3 → ℝ) × (Fin 3 → ℝ)))
    (n : Nat) (k : Fin 3) :
    |(alignLoop o es (n + 1)).r k - (alignLoop o es n).r k| ≤ o.maxRChange ∧
    |(alignLoop o es (n + 1)).t k - (alignLoop o es n).t k| ≤ o.maxTChange := by
  have hm : ∀ {m : ℝ}, 0 ≤ m → |min (-m) m| ≤ m := fun {m} h => by
    rw [min_eq_left (by linarith), abs_neg, abs_of_nonneg h]
  simp only [alignLoop, alignStep]
  split
  · simp only [sub_sub_cancel_left, abs_neg]
    exact ⟨clamp_le hr _, clamp_le ht _⟩
  · simp only [sub_sub_cancel_left, abs_neg]
    exact ⟨hm hr, hm ht⟩

/-- Hence the whole correction is bounded by the number of iterations. -/
theorem C122_correction_bounded (o : OptParams) (hr : 0 ≤ o.maxRChange) (ht : 0 ≤ o.maxTChange)
    (es : List ((Fin 3 → ℝ) × (Fin 3 → ℝ))) (k : Fin 3) : ∀ n : Nat,
    |(alignLoop o es n).r k| ≤ n * o.maxRChange ∧ |(alignLoop o es n).t k| ≤ n * o.maxTChange
  | 0 => by simp [alignLoop]
  | n + 1 => by
    obtain ⟨h1, h2⟩ := C122_correction_bounded o hr ht es k n
    obtain ⟨h3, h4⟩ := C122_step_bounded o hr ht es n k
    have e : ∀ a b : ℝ, |a| ≤ |a - b| + |b| := fun a b => by
      have := abs_add_le (a - b) b
      rwa [sub_add_cancel] at this
    push_cast
    refine ⟨?_, ?_⟩
    · linarith [e ((alignLoop o es (n + 1)).r k) ((alignLoop o es n).r k)]
    · linarith [e ((alignLoop o es (n + 1)).t k) ((alignLoop o es n).t k)]

/-- The gradient of the code is the derivative of the loss in any direction, as long as there is no rotation yet (in the first iteration);
and with respect to the translation always. Missing: the derivative with respect to the rotation afterwards, which is not what the code
computes (`C122_fails_gradient`). -/
theorem C122_gradient_partial (gamma : ℝ) (es : List ((Fin 3 → ℝ) × (Fin 3 → ℝ))) (t : Fin 3 → ℝ) :
    (∀ v w, HasDerivAt (fun s : ℝ => loss gamma (expRotation (s • v)) (t + s • w) es)
      (2 * (v ⬝ᵥ gradR gamma 1 t 0 es + w ⬝ᵥ gradT gamma 1 t 0 es)) 0) ∧
    ∀ R w, HasDerivAt (fun s : ℝ => loss gamma R (t + s • w) es) (2 * (w ⬝ᵥ gradT gamma R t 0 es)) 0 := by
  constructor
  · intro v w
    have h := hasDerivAt_lossFrom gamma (fun k j => hasDerivAt_expRotation v k j) t w es 0
    simp only [zero_smul, expRotation_zero] at h
    rw [lossDeriv_one] at h
    simpa only [loss_eq] using h
  · intro R w
    have h := hasDerivAt_lossFrom gamma (F := fun _ => R) (D := 0) (fun k j => hasDerivAt_const _ _) t w es 0
    rw [lossDeriv_zero] at h
    simpa only [loss_eq] using h

/-- A step in the first iteration goes down the slope: the loss changes, to first order, by minus the sum of squares of the gradient, if
the limits are not reached. -/
theorem C122_first_step_descends (gamma : ℝ) (es : List ((Fin 3 → ℝ) × (Fin 3 → ℝ))) :
    HasDerivAt (fun s : ℝ => loss gamma (expRotation (s • -((2 : ℝ) • gradR gamma 1 0 0 es))) (0 + s • -((2 : ℝ) • gradT gamma 1 0 0 es)) es)
      (-(∑ k, (2 * gradR gamma 1 0 0 es k) ^ 2 + ∑ k, (2 * gradT gamma 1 0 0 es k) ^ 2)) 0 := by
  refine ((C122_gradient_partial gamma es 0).1 _ _).congr_deriv ?_
  simp only [dotProduct, Fin.sum_univ_three, Pi.neg_apply, Pi.smul_apply, smul_eq_mul]
  ring

/-- Every iteration with a rotation that is a number moves each component of the translation against the slope of the loss in that
direction: by the slope times `eta`, but by no more than allowed. -/
theorem C122_translation_step (o : OptParams) (es : List ((Fin 3 → ℝ) × (Fin 3 → ℝ))) (n : Nat) {R : Matrix (Fin 3) (Fin 3) ℝ}
    (hR : (alignLoop o es n).R = some R) (k : Fin 3) :
    ∃ d, HasDerivAt (fun s : ℝ => loss o.gamma R ((alignLoop o es n).t + s • Pi.single k 1) es) d 0 ∧
      (alignLoop o es (n + 1)).t k = (alignLoop o es n).t k - min (max (o.eta * d) (-o.maxTChange)) o.maxTChange := by
  refine ⟨_, (C122_gradient_partial o.gamma es (alignLoop o es n).t).2 R (Pi.single k 1), ?_⟩
  rw [show alignLoop o es (n + 1) = alignStep o es (alignLoop o es n) from rfl]
  simp only [alignStep, hR, clamp, single_one_dotProduct]
  rw [mul_comm (2 : ℝ)]

/-- The first iteration does the same with each component of the rotation. -/
theorem C122_first_rotation_step (o : OptParams) (es : List ((Fin 3 → ℝ) × (Fin 3 → ℝ))) (k : Fin 3) :
    ∃ d, HasDerivAt (fun s : ℝ => loss o.gamma (expRotation (s • Pi.single k 1)) 0 es) d 0 ∧
      (alignLoop o es 1).r k = - min (max (o.eta * d) (-o.maxRChange)) o.maxRChange := by
  have h := (C122_gradient_partial o.gamma es 0).1 (Pi.single k 1) 0
  simp only [smul_zero, add_zero, zero_dotProduct] at h
  refine ⟨_, h, ?_⟩
  show (alignStep o es ⟨0, 0, some 1⟩).r k = _
  simp only [alignStep, clamp, single_one_dotProduct, Pi.zero_apply, zero_sub]
  rw [mul_comm (2 : ℝ)]

/-- A position two metres off the reference: the slope along the first axis is four, and the step a tenth of it. -/
example : (alignLoop ⟨1, 1 / 10, 5, 1, 1⟩ [(![2, 0, 0], ![0, 0, 0])] 1).t 0 = -(4 / 10) := by
  show (alignStep _ _ ⟨0, 0, some 1⟩).t 0 = _
  simp [alignStep, clamp, gradT, residual]
  norm_num

theorem quarter : expRotation ![0, 0, Real.pi / 2] = !![0, -1, 0; 1, 0, 0; 0, 0, 1] := by
  have e : (![0, 0, Real.pi / 2] : Fin 3 → ℝ) = (Real.pi / 2) • ![0, 0, 1] := by
    ext i
    fin_cases i <;> simp
  have hn : norm3 ![0, 0, 1] = 1 := by simp [norm3]
  rw [e, expRotation_smul _ (by rw [hn]; norm_num), hn, mul_one]
  funext i j
  fin_cases i <;> fin_cases j <;> simp [rodrigues, skewOf]

/-- After a quarter turn about the third axis, the code's gradient with respect to the rotation is zero although the loss changes with the
angle: the code turns the position before the correction instead of the corrected one. -/
theorem C122_fails_gradient (gamma : ℝ) :
    ∃ (r : Fin 3 → ℝ) (es : List ((Fin 3 → ℝ) × (Fin 3 → ℝ))),
      gradR gamma (expRotation r) 0 0 es = 0 ∧
      HasDerivAt (fun s : ℝ => loss gamma (expRotation (r + s • ![0, 0, 1])) 0 es) (-2) 0 := by
  refine ⟨![0, 0, Real.pi / 2], [(![1, 0, 0], ![-1, 1, 0])], ?_, ?_⟩
  · rw [quarter]
    funext k
    fin_cases k <;> simp [gradR, residual, skew, vecHead, vecTail]
  · have hn : norm3 ![0, 0, 1] = 1 := by simp [norm3]
    have e : (fun s : ℝ => loss gamma (expRotation (![0, 0, Real.pi / 2] + s • ![0, 0, 1])) 0 [(![1, 0, 0], ![-1, 1, 0])]) =
        fun s : ℝ => (1 - Real.sin s) ^ 2 + (Real.cos s - 1) ^ 2 := by
      funext s
      have e1 : (![0, 0, Real.pi / 2] + s • ![0, 0, 1] : Fin 3 → ℝ) = (s + Real.pi / 2) • ![0, 0, 1] := by
        ext i
        fin_cases i <;> simp [add_comm]
      rw [e1, expRotation_smul _ (by rw [hn]; norm_num), hn, mul_one, loss_eq]
      simp [lossFrom, residual, rodrigues, skewOf, mulVec, dotProduct, Fin.sum_univ_three, Real.sin_add_pi_div_two, Real.cos_add_pi_div_two]
      ring
    rw [e]
    have h1 := (((Real.hasDerivAt_sin 0).const_sub 1).fun_pow 2).add (((Real.hasDerivAt_cos 0).sub_const 1).fun_pow 2)
    refine h1.congr_deriv ?_
    simp

/-! ### A perfect trajectory -/

theorem residual_one_zero {p q : Fin 3 → ℝ} (h : p = q) : residual 1 0 (p, q) = 0 := by
  subst h
  simp [residual]

theorem loop_one_perfect {o : OptParams} (hr : 0 ≤ o.maxRChange) (ht : 0 ≤ o.maxTChange) {es : List ((Fin 3 → ℝ) × (Fin 3 → ℝ))}
    (h : ∀ e ∈ es, e.1 = e.2) : alignLoop o es 1 = ⟨0, 0, none⟩ := by
  have hz : ∀ e ∈ es, residual 1 0 e = 0 := fun e he => residual_one_zero (h e he)
  have e1 : axang2rotm (fun _ : Fin 3 => (0 : ℝ) - 0) = none := by
    unfold axang2rotm
    rw [if_pos]
    simp [norm3]
  show alignStep o es ⟨0, 0, some 1⟩ = _
  simp only [alignStep, gradR_zero _ _ _ es 0 hz, gradT_zero _ _ _ es 0 hz, Pi.zero_apply, zero_mul, mul_zero, clamp_zero hr, clamp_zero ht]
  rw [e1]
  simp only [sub_self]
  rfl

/-- If the trajectory already is the reference up to a rigid motion, the first iteration divides zero by zero, and with one iteration no
pose of the result is a number. -/
theorem C122_fails_perfect (hl : lib.Lawful) {o : OptParams} (hr : 0 ≤ o.maxRChange) (ht : 0 ≤ o.maxTChange) (h1 : o.iterations = 1)
    {gt l : Traj} (hv : Valid gt) (hg : Increasing gt) (h2 : 2 ≤ gt.length) {G : Iso ℝ} (hvl : Valid l)
    (hm : MovedBy G gt l) : alignTrajectory lib o gt l = .ub := by
  have hts : l.map Prod.fst = gt.map Prod.fst := by
    clear hv hg h2 hvl
    induction hm with
    | nil => rfl
    | cons hx _ ih => simp only [List.map_cons, hx.1, ih]
  have hlen : l.length = gt.length := (List.Forall₂.length_eq hm).symm
  obtain ⟨a, ha⟩ : ∃ a, gt.head? = some a := by
    cases gt with
    | nil => simp at h2
    | cons a _ => exact ⟨a, rfl⟩
  have hne : gt ≠ [] := by
    rintro rfl
    simp at h2
  have hb : gt.getLast? = some (gt.getLast hne) := List.getLast?_eq_some_getLast hne
  obtain ⟨ref, href⟩ := C120_interpolation_succeeds (lib := lib) hg h2 ha hb (ts := l.map Prod.fst)
    (by
      intro e
      have := congrArg List.length e
      simp only [List.length_map, List.length_nil] at this
      omega)
    (by
      rw [hts, List.pairwise_map]
      exact List.Pairwise.imp (fun h => le_of_lt h) hg)
    (by
      rw [hts]
      intro t ht
      obtain ⟨x, hx, rfl⟩ := List.mem_map.1 ht
      obtain ⟨i, hi⟩ := List.mem_iff_getElem?.1 hx
      obtain ⟨hi', rfl⟩ := List.getElem?_eq_some_iff.1 hi
      constructor
      · rw [List.head?_eq_getElem?] at ha
        by_cases h0 : i = 0
        · subst h0
          rw [hi] at ha
          rw [Option.some.inj ha]
        · exact (hg.lt (Nat.pos_of_ne_zero h0) ha hi).le
      · rw [List.getLast?_eq_getElem?] at hb
        by_cases h0 : i = gt.length - 1
        · subst h0
          rw [hi] at hb
          rw [← Option.some.inj hb]
        · exact (hg.lt (by omega) hi hb).le)
  obtain ⟨r1, r2⟩ := C120_interpolation_is_the_reference hl hv hg href
  rw [hts, List.forall₂_map_left_iff] at r1
  -- the reference at its own times is the reference
  have hrefgt : List.Forall₂ (fun x y => y.1 = x.1 ∧ poseToMatrix y.2 = poseToMatrix x.2) gt ref := by
    have key : ∀ (m n : Traj), (∀ x ∈ m, x ∈ gt) → List.Forall₂ (fun x y => y.1 = x.1 ∧ IsReference lib gt x.1 (poseToMatrix y.2)) m n →
        List.Forall₂ (fun x y => y.1 = x.1 ∧ poseToMatrix y.2 = poseToMatrix x.2) m n := by
      intro m n hmem h
      induction h with
      | nil => exact List.Forall₂.nil
      | @cons x y m n hx h ih =>
        refine List.Forall₂.cons ⟨hx.1, ?_⟩ (ih fun z hz => hmem z (List.mem_cons_of_mem _ hz))
        exact C120_reference_unique hg hx.2 (Or.inl ⟨x.2, hmem x List.mem_cons_self, rfl⟩)
    exact key gt ref (fun x hx => hx) r1
  match gt, l, ref, hm, hrefgt, hvl with
  | g0 :: gt, x0 :: l, f0 :: ref, hm, hrefgt, hvl =>
    have hfv : f0.2.Valid := r2 _ List.mem_cons_self
    obtain ⟨guess, M, q1, q2, q3, q4, q5, q6⟩ := C119_recompute_is_a_rigid_motion hl (l := x0 :: l) hvl hfv rfl
    -- the guess is the reference
    have hx0 := (movedBy_cons hm).1.2
    have hf0 := (List.forall₂_cons.1 hrefgt).1.2
    have hMG : M * G = 1 := by
      have hg0 : Rigid (poseToMatrix g0.2) := (hv _ List.mem_cons_self).rigid
      have : M * G * poseToMatrix g0.2 = poseToMatrix g0.2 := by
        rw [Iso.mul_assoc, ← hx0, q3, hf0]
      have := congrArg (· * (poseToMatrix g0.2)⁻¹) this
      simpa only [Iso.mul_assoc, hg0.mul_inv, Iso.mul_one] using this
    have hpos : ∀ (a b c d : Traj), MovedBy G a b → MovedBy M b c →
        List.Forall₂ (fun x y => y.1 = x.1 ∧ poseToMatrix y.2 = poseToMatrix x.2) a d → ∀ e ∈ (positions c).zip (positions d), e.1 = e.2 := by
      intro a b c d hab
      induction hab generalizing c d with
      | nil =>
        intro hbc _ e he
        cases hbc
        simp [positions] at he
      | @cons x y a b hx hab ih =>
        intro hbc had e he
        cases hbc with
        | @cons _ z _ c hy hbc =>
          cases had with
          | @cons _ u _ d hu had =>
            simp only [positions, List.map_cons, List.zip_cons_cons, List.mem_cons] at he
            rcases he with rfl | he
            · show z.2.position = u.2.position
              have e1 : poseToMatrix z.2 = poseToMatrix u.2 := by
                rw [hy.2, hx.2, ← Iso.mul_assoc, hMG, Iso.one_mul, hu.2]
              exact congrArg Iso.t e1
            · exact ih c d hbc had e he
    have hperf := hpos _ _ _ _ hm q4 hrefgt
    unfold alignTrajectory
    rw [href, Outcome.bind_ok, show at' (f0 :: ref) 0 = .ok f0 from rfl, Outcome.bind_ok, q1, Outcome.bind_ok, h1, loop_one_perfect hr ht hperf]
    rfl

/-- With two iterations the second one then takes the largest step in every direction, so that a perfect trajectory is moved away from the
reference. -/
theorem C122_fails_perfect_two {o : OptParams} (hr : 0 ≤ o.maxRChange) (ht : 0 ≤ o.maxTChange) {es : List ((Fin 3 → ℝ) × (Fin 3 → ℝ))}
    (h : ∀ e ∈ es, e.1 = e.2) :
    (alignLoop o es 2).r = (fun _ => o.maxRChange) ∧ (alignLoop o es 2).t = (fun _ => o.maxTChange) := by
  have e : alignLoop o es 2 = alignStep o es ⟨0, 0, none⟩ := by
    rw [show alignLoop o es 2 = alignStep o es (alignLoop o es 1) from rfl, loop_one_perfect hr ht h]
  rw [e]
  simp only [alignStep, Pi.zero_apply]
  rw [min_eq_left (by linarith), min_eq_left (by linarith)]
  simp

/-! ### The options and the report -/

/-- Both alignments at once are refused; otherwise the chosen one is applied. -/
theorem C122_options (o : OptParams) :
    alignmentOf true true o = .throws ∧ alignmentOf true false o = .ok .firstPose ∧ alignmentOf false true o = .ok (.trajectories o) ∧
    alignmentOf false false o = .ok .none := ⟨rfl, rfl, rfl, rfl⟩

/-- Whatever alignment: the trajectory is moved as a rigid body. -/
theorem C122_align_rigid (hl : lib.Lawful) {a : Alignment} {gt l l' : Traj} (hv : Valid gt) (hg : Increasing gt) (hvl : Valid l)
    (h : align lib a gt l = .ok l') : ∃ M, Rigid M ∧ MovedBy M l l' ∧ Valid l' := by
  cases a with
  | none =>
    obtain rfl := Outcome.ok.inj h
    refine ⟨1, Rigid.one, ?_, hvl⟩
    have : ∀ l : Traj, MovedBy 1 l l := fun l => by
      induction l with
      | nil => exact List.Forall₂.nil
      | cons x l ih => exact List.Forall₂.cons ⟨rfl, (Iso.one_mul _).symm⟩ ih
    exact this l
  | firstPose =>
    obtain ⟨M, h1, h2, h3, -⟩ := C122_align_first hl hv hg hvl h
    exact ⟨M, h1, h2, h3⟩
  | trajectories o =>
    obtain ⟨guess, ref, M, C, -, h1, -, -, h2, -, -, -, h3, h4⟩ := (C122_align_trajectory hl hv hg hvl h).out
    exact ⟨C * M, h2.mul h1, h3, h4⟩

theorem inside_self {a b : ℝ × Pose} {M : Iso ℝ} {l l' : Traj} (h : MovedBy M (inside a b l) l') : inside a b l' = l' := by
  have : ∀ (m n : Traj), (∀ x ∈ m, a.1 ≤ x.1 ∧ x.1 ≤ b.1) → MovedBy M m n → ∀ y ∈ n, a.1 ≤ y.1 ∧ y.1 ≤ b.1 := by
    intro m n hm h
    induction h with
    | nil => exact fun y hy => absurd hy List.not_mem_nil
    | @cons x y m n hx h ih =>
      intro z hz
      rcases List.mem_cons.1 hz with rfl | hz
      · rw [hx.1]
        exact hm x List.mem_cons_self
      · exact ih (fun w hw => hm w (List.mem_cons_of_mem _ hw)) z hz
  unfold inside
  rw [List.filter_eq_self]
  intro y hy
  rw [decide_eq_true_iff]
  exact this _ _ (fun x hx => of_decide_eq_true (List.mem_filter.1 hx).2) h y hy

/-- The report for an odometry: about the poses within the time of the reference, moved as a rigid body as the options say; the length is
the length of their path, and every error is the one with respect to the reference at the time of the pose. -/
theorem C121_report (hl : lib.Lawful) {al : Alignment} {gt l : Traj} (hv : Valid gt) (hg : Increasing gt) (hvl : Valid l)
    {a b : ℝ × Pose} (ha : gt.head? = some a) (hb : gt.getLast? = some b) {E : Entry} (h : entry lib al gt l = .ok E) :
    ∃ M Gs, Rigid M ∧ MovedBy M (inside a b l) E.trajectory ∧ E.length = pathLength (positions E.trajectory) ∧
      List.Forall₂ (fun G x => IsReference lib gt x.1 G ∧ Rigid G) Gs E.trajectory ∧
      E.errors.absolute = apesOf Gs E.trajectory ∧ E.errors.relative = rpesOf Gs E.trajectory ∧
      E.ape.position = List.zipWith (fun G x => (x.1, distance G.t x.2.position)) Gs E.trajectory ∧
      E.ape.rotation = List.zipWith (fun G x => (x.1, rotationAngle (G.Rᵀ * (poseToMatrix x.2).R))) Gs E.trajectory ∧
      E.rpe = normsOf lib (rpesOf Gs E.trajectory) := by
  unfold entry at h
  rw [withinBounds_inside ha hb, Outcome.bind_ok] at h
  obtain ⟨l', hl', h⟩ := bind_eq_ok h
  obtain ⟨len, hlen, h⟩ := bind_eq_ok h
  obtain ⟨e, he, h⟩ := bind_eq_ok h
  obtain rfl := Outcome.ok.inj h
  have hvi : Valid (inside a b l) := fun x hx => hvl x (List.mem_filter.1 hx).1
  obtain ⟨M, h1, h2, h3⟩ := C122_align_rigid hl hv hg hvi hl'
  obtain ⟨Gs, h4, h5, h6⟩ := C120_pose_errors_use_the_reference hl hv hg h3 ha hb he
  rw [inside_self h2] at h4 h5 h6
  have hr : List.Forall₂ (fun G (_ : ℝ × Pose) => Rigid G) Gs l' := h4.imp fun _ _ h => h.2
  obtain ⟨h7, h8⟩ := C121_absolute_norms hl h3 hr
  refine ⟨M, Gs, h1, h2, ?_, h4, h5, h6, ?_, ?_, ?_⟩
  · match l', hlen, h3 with
    | x :: l', hlen, h3 =>
      rw [C119_length (fun p hp => by
        obtain ⟨y, hy, rfl⟩ := List.mem_map.1 hp
        exact h3 y hy) (by simp)] at hlen
      rw [← Outcome.ok.inj hlen, List.map_map]
      rfl
  · show (normsOf lib e.absolute).position = _
    rw [h5]
    exact h7
  · show (normsOf lib e.absolute).rotation = _
    rw [h5]
    exact h8
  · show normsOf lib e.relative = _
    rw [h6]

/-- The relative errors of the report do not depend on the alignment. -/
theorem C121_report_relative_errors (hl : lib.Lawful) {al al' : Alignment} {gt l : Traj} (hv : Valid gt) (hg : Increasing gt)
    (hvl : Valid l) {E E' : Entry} (h : entry lib al gt l = .ok E) (h' : entry lib al' gt l = .ok E') :
    E.errors.relative = E'.errors.relative ∧ E.rpe = E'.rpe ∧ E.length = E'.length := by
  have key : ∀ {al E}, entry lib al gt l = .ok E →
      ∃ m r len, withinBounds gt l = .ok m ∧ poseErrors lib gt m = .ok r ∧ trajectoryLength (m.map Prod.snd) = .ok len ∧
        E.errors.relative = r.relative ∧ E.rpe = normsOf lib r.relative ∧ E.length = len := by
    intro al E h
    obtain ⟨m, hm, h⟩ := bind_eq_ok h
    obtain ⟨l', hl', h⟩ := bind_eq_ok h
    obtain ⟨len, hlen, h⟩ := bind_eq_ok h
    obtain ⟨e, he, h⟩ := bind_eq_ok h
    obtain rfl := Outcome.ok.inj h
    obtain ⟨a, b, ha, hb, hmem⟩ := withinBounds_ok hm
    have hvm : Valid m := fun x hx => hvl x ((hmem x).1 hx).1
    obtain ⟨M, h1, h2, h3⟩ := C122_align_rigid hl hv hg hvm hl'
    -- go back from the moved trajectory
    have hback : MovedBy M⁻¹ l' m := by
      refine List.Forall₂.flip (List.Forall₂.imp (fun x y hx => ⟨hx.1.symm, ?_⟩) h2)
      rw [hx.2, inv_mul_cancel_left h1]
    obtain ⟨r, hr, hrel⟩ := C121_relative_errors_unchanged h1.inv h3 hback he
    refine ⟨m, r, len, hm, hr, ?_, hrel.symm, ?_, rfl⟩
    · rw [← hlen]
      exact (C119_length_unchanged h1 hvm h3 h2).symm
    · show normsOf lib e.relative = _
      rw [hrel]
  obtain ⟨m, r, len, k1, k2, k3, k4, k5, k6⟩ := key h
  obtain ⟨m', r', len', k1', k2', k3', k4', k5', k6'⟩ := key h'
  rw [k1] at k1'
  obtain rfl := Outcome.ok.inj k1'
  rw [k2] at k2'
  obtain rfl := Outcome.ok.inj k2'
  rw [k3] at k3'
  obtain rfl := Outcome.ok.inj k3'
  exact ⟨k4.trans k4'.symm, k5.trans k5'.symm, k6.trans k6'.symm⟩

/-- After aligning to the first pose, the first absolute error is none. -/
theorem C122_first_error_zero (hl : lib.Lawful) {gt l : Traj} (hv : Valid gt) (hg : Increasing gt) (hvl : Valid l)
    {E : Entry} (h : entry lib .firstPose gt l = .ok E) : ∃ t, E.errors.absolute.head? = some (t, 1) := by
  obtain ⟨m, hm, h2⟩ := bind_eq_ok h
  obtain ⟨l', hl', -⟩ := bind_eq_ok h2
  obtain ⟨a, b, ha, hb, hmem⟩ := withinBounds_ok hm
  have hvm : Valid m := fun x hx => hvl x ((hmem x).1 hx).1
  obtain ⟨M', Gs, -, -, -, h4, h5, -⟩ := C121_report hl hv hg hvl ha hb h
  obtain ⟨M, -, -, -, x, h7, h8⟩ := C122_align_first hl hv hg hvm hl'
  have hE : E.trajectory = l' := by
    obtain ⟨len, -, h3⟩ := bind_eq_ok (show (trajectoryLength (l'.map Prod.snd) >>= fun len => poseErrors lib gt l' >>= fun e =>
      Outcome.ok (⟨l', len, e, normsOf lib e.absolute, normsOf lib e.relative⟩ : Entry)) = .ok E by
        rw [show align lib .firstPose gt m = .ok l' from hl', Outcome.bind_ok] at h2
        exact h2)
    obtain ⟨e, -, h3⟩ := bind_eq_ok h3
    rw [← Outcome.ok.inj h3]
  rw [hE] at h4 h5
  match l', h7, Gs, h4, h5 with
  | y :: l', h7, G :: Gs, h4, h5 =>
    obtain rfl := Option.some.inj h7
    have hG := (List.forall₂_cons.1 h4).1
    refine ⟨y.1, ?_⟩
    rw [h5]
    show some (y.1, G⁻¹ * poseToMatrix y.2) = _
    rw [(eq_of_inv_mul hG.2).2 (C120_reference_unique hg h8 hG.1)]

/-- An odometry without a pose within the time of the reference stops the report. -/
theorem C122_empty_stops {al : Alignment} {gt l : Traj} (h : withinBounds gt l = .ok []) : entry lib al gt l = .throws := by
  unfold entry
  rw [h, Outcome.bind_ok]
  cases al with
  | none => rfl
  | firstPose => rfl
  | trajectories o =>
    show (alignTrajectory lib o gt [] >>= _) = _
    have : interpolate lib [] gt = .throws := by
      unfold interpolate
      split
      · rename_i h3 h4
        simp at h3
      · rfl
    unfold alignTrajectory
    rw [List.map_nil, this]
    rfl

/-! ### Examples -/

/-- The report for the shifted walk, aligned to the first pose. -/
example : ∃ l', alignToFirst exampleLib walk shifted = .ok l' ∧
    ∃ x, l'.head? = some x ∧ IsReference exampleLib walk x.1 (poseToMatrix x.2) := by
  obtain ⟨l', h⟩ := C122_align_first_succeeds (lib := exampleLib) (gt := walk) (l := shifted) (a := (0, still 0 0 0))
    (b := (2, turned 3 0 0)) rfl rfl rfl (le_refl _) (by norm_num)
  obtain ⟨M, -, -, -, hx⟩ := C122_align_first exampleLib_lawful walk_valid walk_increasing shifted_valid h
  exact ⟨l', h, hx⟩

/-- The alignment of the shifted walk with one iteration is not a number. -/
example : alignTrajectory exampleLib ⟨0.95, 1e-4, 1, 0.1, 0.1⟩ walk shifted = .ub :=
  C122_fails_perfect exampleLib_lawful (by norm_num) (by norm_num) rfl walk_valid walk_increasing (by simp [walk])
    (G := ⟨1, ![0, 7, 0]⟩) shifted_valid
    (.cons ⟨rfl, shift 0 ⟨1, 0, 0, 0⟩⟩ (.cons ⟨rfl, shift 1 ⟨1, 0, 0, 0⟩⟩ (.cons ⟨rfl, shift 3 ⟨1, 0, 0, 1⟩⟩ .nil)))

end Trajectory

end Serpent
