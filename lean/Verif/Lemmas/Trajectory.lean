import Verif.Spec.Trajectory
import Mathlib.Tactic.FieldSimp
import Mathlib.Tactic.Positivity
import Mathlib.Tactic.Linarith

/-! # Lemmas about the evaluation of trajectories -/

namespace Serpent

namespace Trajectory

open EigenExt Matrix

variable {lib : Lib}

/-! ### Poses and transforms -/

theorem sumSq_pos {q : Quat} (h : q ≠ ⟨0, 0, 0, 0⟩) : 0 < q.w ^ 2 + q.x ^ 2 + q.y ^ 2 + q.z ^ 2 := by
  by_contra hc
  apply h
  have h0 := sq_nonneg q.w
  have h1 := sq_nonneg q.x
  have h2 := sq_nonneg q.y
  have h3 := sq_nonneg q.z
  have e0 : q.w = 0 := pow_eq_zero_iff (two_ne_zero) |>.1 (by linarith)
  have e1 : q.x = 0 := pow_eq_zero_iff (two_ne_zero) |>.1 (by linarith)
  have e2 : q.y = 0 := pow_eq_zero_iff (two_ne_zero) |>.1 (by linarith)
  have e3 : q.z = 0 := pow_eq_zero_iff (two_ne_zero) |>.1 (by linarith)
  exact Quat.ext e0 e1 e2 e3

theorem normalise_unit {q : Quat} (h : q ≠ ⟨0, 0, 0, 0⟩) : Quat.Unit (normalise q) := by
  have hp := sumSq_pos h
  unfold Quat.Unit normalise
  simp only [div_pow, Real.sq_sqrt hp.le]
  rw [← add_div, ← add_div, ← add_div]
  exact div_self hp.ne'

theorem normalise_of_unit {q : Quat} (h : Quat.Unit q) : normalise q = q := by
  unfold Quat.Unit at h
  unfold normalise
  simp [h]

theorem quat2rotm_of_unit {q : Quat} (h : Quat.Unit q) : quat2rotm q = q.toMatrix := by
  unfold quat2rotm
  rw [normalise_of_unit h]

theorem unit_ne {q : Quat} (h : Quat.Unit q) : q ≠ ⟨0, 0, 0, 0⟩ := by
  rintro rfl
  simp [Quat.Unit] at h

theorem rigid_of {R : Matrix (Fin 3) (Fin 3) ℝ} (h : Quat.Rotation R) (t : Fin 3 → ℝ) : Rigid (⟨R, t⟩ : Iso ℝ) := ⟨h.orthogonal, h.det⟩

theorem rotation_of {T : Iso ℝ} (h : Rigid T) : Quat.Rotation T.R := ⟨h.orthogonal, h.det⟩

theorem Pose.Valid.rigid {p : Pose} (h : p.Valid) : Rigid (poseToMatrix p) := rigid_of (normalise_unit h).rotation _

theorem poseToMatrix_matrixToPose (hl : lib.Lawful) {T : Iso ℝ} (h : Rigid T) : poseToMatrix (matrixToPose lib T) = T := by
  unfold poseToMatrix matrixToPose
  rw [quat2rotm_of_unit (hl.quatUnit _ (rotation_of h)), hl.quatMatrix _ (rotation_of h)]

theorem matrixToPose_valid (hl : lib.Lawful) {T : Iso ℝ} (h : Rigid T) : (matrixToPose lib T).Valid :=
  unit_ne (hl.quatUnit _ (rotation_of h))

theorem ldiv_eq {A : Iso ℝ} (h : Rigid A) (B : Iso ℝ) : ldiv A B = A⁻¹ * B := by
  have e : A.R⁻¹ = A.Rᵀ := Matrix.inv_eq_left_inv h.orthogonal
  unfold ldiv
  rw [e]
  ext1
  · rfl
  · simp only [Iso.mul_t, Iso.inv_R, Iso.inv_t, mulVec_sub]
    exact sub_eq_add_neg _ _

theorem ldiv_rigid {A B : Iso ℝ} (h : Rigid A) (hB : Rigid B) : Rigid (ldiv A B) := by
  rw [ldiv_eq h]
  exact h.inv.mul hB

theorem inv_mul_cancel_left {A : Iso ℝ} (h : Rigid A) (B : Iso ℝ) : A⁻¹ * (A * B) = B := by
  rw [← Iso.mul_assoc, h.inv_mul, Iso.one_mul]

theorem mul_inv_cancel_left {A : Iso ℝ} (h : Rigid A) (B : Iso ℝ) : A * (A⁻¹ * B) = B := by
  rw [← Iso.mul_assoc, h.mul_inv, Iso.one_mul]

/-- A common factor on the left drops out. -/
theorem ldiv_mul {G A : Iso ℝ} (hG : Rigid G) (hA : Rigid A) (B : Iso ℝ) : ldiv (G * A) (G * B) = ldiv A B := by
  rw [ldiv_eq (hG.mul hA), ldiv_eq hA, hG.mul_inv_rev hA, Iso.mul_assoc, inv_mul_cancel_left hG]

/-! ### Moving a trajectory -/

theorem movedBy_valid {G : Iso ℝ} {a b : Traj} (h : MovedBy G a b) : b.length = a.length := (List.Forall₂.length_eq h).symm

theorem recomputeLoop_moved (hl : lib.Lawful) {G : Iso ℝ} (hG : Rigid G) : ∀ (l : Traj) (P : Iso ℝ), Rigid P → Valid l →
    MovedBy G l (recomputeLoop lib P (G * P) l) ∧ Valid (recomputeLoop lib P (G * P) l)
  | [], _, _, _ => ⟨List.Forall₂.nil, fun _ h => absurd h List.not_mem_nil⟩
  | (s, p) :: ps, P, hP, hv => by
    have hp : Rigid (poseToMatrix p) := (hv _ List.mem_cons_self).rigid
    have e : G * P * ldiv P (poseToMatrix p) = G * poseToMatrix p := by
      rw [ldiv_eq hP, Iso.mul_assoc, mul_inv_cancel_left hP]
    obtain ⟨h1, h2⟩ := recomputeLoop_moved hl hG ps (poseToMatrix p) hp fun x hx => hv x (List.mem_cons_of_mem _ hx)
    simp only [recomputeLoop, e]
    refine ⟨List.Forall₂.cons ⟨rfl, poseToMatrix_matrixToPose hl (hG.mul hp)⟩ h1, ?_⟩
    intro x hx
    rcases List.mem_cons.1 hx with rfl | hx
    · exact matrixToPose_valid hl (hG.mul hp)
    · exact h2 x hx

theorem recompute_moved (hl : lib.Lawful) {s : ℝ} {p first : Pose} {ps : Traj} (hv : Valid ((s, p) :: ps)) (hf : first.Valid) :
    ∃ l', recompute lib ((s, p) :: ps) first = .ok l' ∧ MovedBy (poseToMatrix first * (poseToMatrix p)⁻¹) ((s, p) :: ps) l' ∧ Valid l' ∧
      l'.head? = some (s, first) := by
  have hp : Rigid (poseToMatrix p) := (hv _ List.mem_cons_self).rigid
  have e : poseToMatrix first * (poseToMatrix p)⁻¹ * poseToMatrix p = poseToMatrix first := by
    rw [Iso.mul_assoc, hp.inv_mul, Iso.mul_one]
  obtain ⟨h1, h2⟩ := recomputeLoop_moved hl (hf.rigid.mul hp.inv) ps (poseToMatrix p) hp fun x hx => hv x (List.mem_cons_of_mem _ hx)
  rw [e] at h1 h2
  refine ⟨_, rfl, List.Forall₂.cons ⟨rfl, e.symm⟩ h1, ?_, rfl⟩
  intro x hx
  rcases List.mem_cons.1 hx with rfl | hx
  · exact hf
  · exact h2 x hx

/-! ### Lengths -/

theorem norm3_nonneg (v : Fin 3 → ℝ) : 0 ≤ norm3 v := Real.sqrt_nonneg _

theorem norm3_sq (v : Fin 3 → ℝ) : norm3 v ^ 2 = v 0 ^ 2 + v 1 ^ 2 + v 2 ^ 2 := Real.sq_sqrt (by positivity)

/-- Rotations keep lengths. -/
theorem norm3_rotate {R : Matrix (Fin 3) (Fin 3) ℝ} (h : Quat.Rotation R) (v : Fin 3 → ℝ) : norm3 (R *ᵥ v) = norm3 v := by
  have hc := h.coeffs.col
  unfold norm3
  congr 1
  simp only [mulVec, dotProduct, Fin.sum_univ_three]
  have h00 := hc 0 0; have h01 := hc 0 1; have h02 := hc 0 2
  have h11 := hc 1 1; have h12 := hc 1 2; have h22 := hc 2 2
  simp at h00 h01 h02 h11 h12 h22
  linear_combination v 0 ^ 2 * h00 + v 1 ^ 2 * h11 + v 2 ^ 2 * h22 + 2 * v 0 * v 1 * h01 + 2 * v 0 * v 2 * h02 + 2 * v 1 * v 2 * h12

theorem rotation_transpose {R : Matrix (Fin 3) (Fin 3) ℝ} (h : Quat.Rotation R) : Quat.Rotation Rᵀ :=
  rotation_of (rigid_of h 0).inv

theorem distance_eq (a b : Fin 3 → ℝ) : distance a b = norm3 (b - a) := by
  unfold distance norm3
  congr 1
  simp only [Fin.sum_univ_three, Pi.sub_apply]
  ring

/-- The length of the translation of a relative transform is the distance of the positions. -/
theorem norm3_ldiv {A : Iso ℝ} (h : Rigid A) (B : Iso ℝ) : norm3 (ldiv A B).t = distance A.t B.t := by
  have e : A.R⁻¹ = A.Rᵀ := Matrix.inv_eq_left_inv h.orthogonal
  unfold ldiv
  rw [e, norm3_rotate (rotation_transpose (rotation_of h)), distance_eq]

theorem lengthLoop_eq : ∀ (l : List Pose) (len : ℝ) (p : Pose), p.Valid → (∀ q ∈ l, q.Valid) →
    lengthLoop len (poseToMatrix p) l = len + pathLength (p.position :: l.map Pose.position)
  | [], len, p, _, _ => by simp [lengthLoop, pathLength]
  | q :: l, len, p, hp, hv => by
    simp only [lengthLoop, List.map_cons, pathLength]
    rw [lengthLoop_eq l _ q (hv q List.mem_cons_self) fun x hx => hv x (List.mem_cons_of_mem _ hx), norm3_ldiv hp.rigid, add_assoc]
    rfl

/-! ### Reading the reference -/

theorem at'_ok {α : Type} {l : List α} {i : Nat} {a : α} : at' l i = .ok a ↔ l[i]? = some a := by
  unfold at'
  split <;> simp_all

theorem coefficient_ok {t1 t2 t c : ℝ} (h : coefficient t1 t2 t = .ok c) :
    t2 ≠ t1 ∧ c = (t - t1) / (t2 - t1) ∧ 0 ≤ c ∧ c ≤ 1 := by
  unfold coefficient at h
  split at h
  · exact absurd h (by simp)
  · rename_i h0
    split at h
    · exact absurd h (by simp)
    · rename_i h1
      injection h with h
      push Not at h1
      subst h
      exact ⟨fun e => h0 (by rw [e]; ring), rfl, h1.1, h1.2⟩

theorem coefficient_between {t1 t2 t : ℝ} (h1 : t1 ≤ t) (h2 : t ≤ t2) (h : t1 < t2) :
    coefficient t1 t2 t = .ok ((t - t1) / (t2 - t1)) := by
  have hp : 0 < t2 - t1 := by linarith
  unfold coefficient
  rw [if_neg hp.ne', if_neg]
  push Not
  exact ⟨div_nonneg (by linarith) hp.le, (div_le_one hp).2 (by linarith)⟩

theorem advance_ok {α : Type} {gt : List (ℝ × α)} {t : ℝ} : ∀ {i j : Nat}, advance gt t i = .ok j →
    i ≤ j ∧ (∃ h : j < gt.length, ¬ (gt[j]).1 < t) ∧ ∀ k (hk : k < gt.length), i ≤ k → k < j → (gt[k]).1 < t := by
  intro i
  induction hn : gt.length - i generalizing i with
  | zero =>
    intro j h
    unfold advance at h
    rw [dif_neg (by omega)] at h
    exact absurd h (by simp)
  | succ n ih =>
    intro j h
    unfold advance at h
    by_cases hi : i < gt.length
    · rw [dif_pos hi] at h
      by_cases ht : (gt[i]).1 < t
      · rw [if_pos ht] at h
        obtain ⟨h1, h2, h3⟩ := ih (by omega) h
        refine ⟨by omega, h2, fun k hk hik hkj => ?_⟩
        rcases Nat.eq_or_lt_of_le hik with rfl | hlt
        · exact ht
        · exact h3 k hk hlt hkj
      · rw [if_neg ht] at h
        injection h with h
        subst h
        exact ⟨le_refl _, ⟨hi, ht⟩, fun k _ h1 h2 => absurd h1 (by omega)⟩
    · rw [dif_neg hi] at h
      exact absurd h (by simp)

theorem advance_succeeds {α : Type} {gt : List (ℝ × α)} {t : ℝ} {k : Nat} (hk : k < gt.length) (ht : t ≤ (gt[k]).1) :
    ∀ i, i ≤ k → ∃ j, advance gt t i = .ok j := by
  intro i
  induction hn : k - i generalizing i with
  | zero =>
    intro hi
    have : i = k := by omega
    subst this
    exact ⟨i, by unfold advance; rw [dif_pos hk, if_neg (not_lt.2 ht)]⟩
  | succ n ih =>
    intro hi
    unfold advance
    rw [dif_pos (by omega)]
    by_cases h : (gt[i]).1 < t
    · rw [if_pos h]; exact ih (i + 1) (by omega) (by omega)
    · rw [if_neg h]; exact ⟨i, rfl⟩

theorem neighbours_of_get {α : Type} {l : List α} {j : Nat} {a b : α} (ha : l[j]? = some a) (hb : l[j + 1]? = some b) :
    Neighbours l a b := by
  obtain ⟨h1, e1⟩ := List.getElem?_eq_some_iff.1 ha
  obtain ⟨h2, e2⟩ := List.getElem?_eq_some_iff.1 hb
  refine ⟨l.take j, l.drop (j + 2), ?_⟩
  conv_lhs => rw [← List.take_append_drop j l]
  rw [List.drop_eq_getElem_cons h1, List.drop_eq_getElem_cons h2, e1, e2]

/-- The result of `reference`: an element of this time, or of two neighbours. -/
theorem reference_ok {α β : Type} {exact : α → β} {interp : ℝ → ℝ → α → α → ℝ → Outcome β} {gt : List (ℝ × α)} {i : Nat} {t : ℝ} {G : β}
    (h : reference exact interp gt i t = .ok G) :
    (∃ p, (t, p) ∈ gt ∧ G = exact p) ∨
    ∃ j a b, i = j + 1 ∧ gt[j]? = some a ∧ gt[j + 1]? = some b ∧ b.1 ≠ t ∧ interp a.1 b.1 a.2 b.2 t = .ok G := by
  unfold reference at h
  cases hb : at' gt i with
  | throws => rw [hb] at h; exact absurd h (by simp [Outcome.bind_throws])
  | ub => rw [hb] at h; exact absurd h (by simp [Outcome.bind_ub])
  | ok b =>
    rw [hb, Outcome.bind_ok] at h
    have hb' := at'_ok.1 hb
    by_cases e : b.1 = t
    · rw [if_pos e] at h
      injection h with h
      left
      refine ⟨b.2, ?_, h.symm⟩
      have := List.mem_of_getElem? hb'
      rw [← e]
      exact this
    · rw [if_neg e] at h
      right
      match i, h with
      | 0, h => exact absurd h (by simp)
      | j + 1, h =>
        cases ha : at' gt j with
        | throws => simp only [ha, Outcome.bind_throws] at h; exact absurd h (by simp)
        | ub => simp only [ha, Outcome.bind_ub] at h; exact absurd h (by simp)
        | ok a =>
          simp only [ha, Outcome.bind_ok] at h
          exact ⟨j, a, b, rfl, at'_ok.1 ha, hb', e, h⟩

theorem normalise_valid {p : Pose} (h : p.Valid) : Quat.Unit (normalise p.orientation) := normalise_unit h

theorem interpTransform_ok (hl : lib.Lawful) {t1 t2 t : ℝ} {p1 p2 : Pose} {G : Iso ℝ} (h1 : p1.Valid) (h2 : p2.Valid)
    (h : interpTransform lib t1 t2 p1 p2 t = .ok G) :
    t2 ≠ t1 ∧ 0 ≤ (t - t1) / (t2 - t1) ∧ (t - t1) / (t2 - t1) ≤ 1 ∧ Rigid G ∧
    G.t = (1 - (t - t1) / (t2 - t1)) • p1.position + ((t - t1) / (t2 - t1)) • p2.position ∧
    G.R = (lib.quatinterp (normalise p1.orientation) (normalise p2.orientation) ((t - t1) / (t2 - t1))).toMatrix := by
  unfold interpTransform at h
  cases hc : coefficient t1 t2 t with
  | throws => rw [hc] at h; exact absurd h (by simp [Outcome.bind_throws])
  | ub => rw [hc] at h; exact absurd h (by simp [Outcome.bind_ub])
  | ok c =>
    rw [hc, Outcome.bind_ok] at h
    obtain ⟨h3, rfl, h4, h5⟩ := coefficient_ok hc
    injection h with h
    have hu := hl.interpUnit _ _ _ (normalise_valid h1) (normalise_valid h2) h4 h5
    subst h
    refine ⟨h3, h4, h5, rigid_of ?_ _, ?_, quat2rotm_of_unit hu⟩
    · rw [quat2rotm_of_unit hu]; exact hu.rotation
    · ext k
      simp only [Pi.add_apply, Pi.smul_apply, Pi.sub_apply, smul_eq_mul]
      ring

/-- Sorted lists: earlier elements have earlier times. -/
theorem Increasing.lt {α : Type} {l : List (ℝ × α)} (h : Increasing l) {i j : Nat} (hij : i < j) {a b : ℝ × α} (ha : l[i]? = some a)
    (hb : l[j]? = some b) : a.1 < b.1 := by
  obtain ⟨h1, rfl⟩ := List.getElem?_eq_some_iff.1 ha
  obtain ⟨h2, rfl⟩ := List.getElem?_eq_some_iff.1 hb
  exact List.pairwise_iff_getElem.1 h i j h1 h2 hij

theorem Increasing.not_le {α : Type} {l : List (ℝ × α)} (h : Increasing l) {i j : Nat} {a b : ℝ × α} (ha : l[i]? = some a)
    (hb : l[j]? = some b) (hab : a.1 < b.1) : i < j := by
  by_contra hc
  rcases Nat.eq_or_lt_of_le (not_lt.1 hc) with rfl | hlt
  · rw [ha] at hb
    obtain rfl := Option.some.inj hb
    exact lt_irrefl _ hab
  · exact lt_asymm hab (h.lt hlt hb ha)

/-- Whatever the index is, a result is the reference at that time. -/
theorem poseReference_isReference (hl : lib.Lawful) {gt : Traj} (hv : Valid gt) (hg : Increasing gt) {i : Nat} {t : ℝ} {G : Iso ℝ}
    (h : poseReference lib gt i t = .ok G) : IsReference lib gt t G ∧ Rigid G := by
  rcases reference_ok h with ⟨p, hp, rfl⟩ | ⟨j, a, b, -, ha, hb, hbt, hi⟩
  · exact ⟨Or.inl ⟨p, hp, rfl⟩, (hv _ hp).rigid⟩
  · have hva : a.2.Valid := hv _ (List.mem_of_getElem? ha)
    have hvb : b.2.Valid := hv _ (List.mem_of_getElem? hb)
    obtain ⟨-, h1, h2, h3, h4, h5⟩ := interpTransform_ok hl hva hvb hi
    have hab : a.1 < b.1 := hg.lt (Nat.lt_succ_self j) ha hb
    have hp : 0 < b.1 - a.1 := by linarith
    refine ⟨?_, h3⟩
    have hat : a.1 ≤ t := by
      by_contra hc
      have : (t - a.1) / (b.1 - a.1) < 0 := div_neg_of_neg_of_pos (by linarith [not_le.1 hc]) hp
      linarith
    have hbt' : t < b.1 := by
      have := (div_le_one hp).1 h2
      exact lt_of_le_of_ne (by linarith) (Ne.symm hbt)
    rcases hat.lt_or_eq with hat | hat
    · exact Or.inr ⟨a, b, neighbours_of_get ha hb, hat, hbt', h4, h5⟩
    · left
      refine ⟨a.2, ?_, ?_⟩
      · rw [← hat]; exact List.mem_of_getElem? ha
      · rw [← hat, sub_self, zero_div] at h4 h5
        rw [hl.interpZero _ _ (normalise_valid hva) (normalise_valid hvb)] at h5
        ext1
        · exact h5
        · rw [h4]; simp [poseToMatrix]

theorem vectorReference_isReference {n : Nat} {gt : List (ℝ × (Fin n → ℝ))} (hg : Increasing gt) {i : Nat} {t : ℝ} {g : Fin n → ℝ}
    (h : vectorReference gt i t = .ok g) : IsVectorReference gt t g := by
  rcases reference_ok h with ⟨p, hp, rfl⟩ | ⟨j, a, b, -, ha, hb, hbt, hi⟩
  · exact Or.inl hp
  · unfold interpVector at hi
    cases hc : coefficient a.1 b.1 t with
    | throws => rw [hc] at hi; exact absurd hi (by simp [Outcome.bind_throws])
    | ub => rw [hc] at hi; exact absurd hi (by simp [Outcome.bind_ub])
    | ok c =>
      rw [hc, Outcome.bind_ok] at hi
      obtain ⟨-, rfl, h1, h2⟩ := coefficient_ok hc
      injection hi with hi
      have hab : a.1 < b.1 := hg.lt (Nat.lt_succ_self j) ha hb
      have hp : 0 < b.1 - a.1 := by linarith
      have hat : a.1 ≤ t := by
        by_contra hc
        have : (t - a.1) / (b.1 - a.1) < 0 := div_neg_of_neg_of_pos (by linarith [not_le.1 hc]) hp
        linarith
      have hbt' : t < b.1 := by
        have := (div_le_one hp).1 h2
        exact lt_of_le_of_ne (by linarith) (Ne.symm hbt)
      rcases hat.lt_or_eq with hat | hat
      · refine Or.inr ⟨a, b, neighbours_of_get ha hb, hat, hbt', ?_⟩
        rw [← hi]
        ext k
        simp only [Pi.add_apply, Pi.smul_apply, Pi.sub_apply, smul_eq_mul]
        ring
      · left
        rw [← hat, sub_self, zero_div, zero_smul, add_zero] at hi
        rw [← hat, ← hi]
        exact List.mem_of_getElem? ha

/-- The reference exists when the index is not past the time. -/
theorem reference_succeeds {α β : Type} {exact : α → β} {interp : ℝ → ℝ → α → α → ℝ → Outcome β}
    (hint : ∀ t1 t2 a b t, t1 < t → t < t2 → ∃ G, interp t1 t2 a b t = .ok G) {gt : List (ℝ × α)} {t : ℝ}
    {first last : ℝ × α} (hf : gt.head? = some first) (hl : gt.getLast? = some last) (h1 : first.1 ≤ t) (h2 : t ≤ last.1) {i : Nat}
    (hi : ∀ k (hk : k < gt.length), k < i → (gt[k]).1 < t) :
    ∃ j, advance gt t i = .ok j ∧ (∃ G, reference exact interp gt j t = .ok G) ∧ ∀ k (hk : k < gt.length), k < j → (gt[k]).1 < t := by
  have hne : gt ≠ [] := by rintro rfl; simp at hf
  have hpos : 0 < gt.length := List.length_pos_iff.2 hne
  have hlast : gt[gt.length - 1]'(by omega) = last := by
    rw [List.getLast?_eq_some_getLast hne] at hl
    rw [← Option.some.inj hl, List.getLast_eq_getElem]
  have hile : i ≤ gt.length - 1 := by
    by_contra hc
    have := hi (gt.length - 1) (by omega) (by omega)
    rw [hlast] at this
    linarith
  obtain ⟨j, hj⟩ := advance_succeeds (gt := gt) (t := t) (k := gt.length - 1) (by omega) (by rw [hlast]; exact h2) i hile
  obtain ⟨hij, ⟨hjl, hnj⟩, hbet⟩ := advance_ok hj
  have hall : ∀ k (hk : k < gt.length), k < j → (gt[k]).1 < t := fun k hk hkj =>
    if h : k < i then hi k hk h else hbet k hk (by omega) hkj
  refine ⟨j, hj, ?_, hall⟩
  unfold reference
  rw [at'_ok.2 (List.getElem?_eq_getElem hjl), Outcome.bind_ok]
  by_cases e : (gt[j]).1 = t
  · exact ⟨_, by rw [if_pos e]⟩
  · rw [if_neg e]
    match j, hjl, hnj, hall, e with
    | 0, hjl, hnj, _, e =>
      have : gt[0] = first := by
        rw [List.head?_eq_getElem?, List.getElem?_eq_getElem hpos] at hf
        exact Option.some.inj hf
      rw [this] at hnj e
      exact absurd (le_antisymm h1 (not_lt.1 hnj)) e
    | j + 1, hjl, hnj, hall, e =>
      obtain ⟨G, hG⟩ := hint (gt[j]).1 (gt[j + 1]).1 (gt[j]).2 (gt[j + 1]).2 t (hall j (by omega) (by omega))
        (lt_of_le_of_ne (not_lt.1 hnj) (Ne.symm e))
      refine ⟨G, ?_⟩
      show (at' gt j >>= fun a => interp a.1 (gt[j + 1]).1 a.2 (gt[j + 1]).2 t) = _
      rw [at'_ok.2 (List.getElem?_eq_getElem (by omega)), Outcome.bind_ok]
      exact hG

theorem interpTransform_between {t1 t2 t : ℝ} (p1 p2 : Pose) (h1 : t1 ≤ t) (h2 : t ≤ t2) (h : t1 < t2) :
    ∃ G, interpTransform lib t1 t2 p1 p2 t = .ok G := by
  unfold interpTransform
  rw [coefficient_between h1 h2 h]
  exact ⟨_, rfl⟩

theorem interpVector_between {n : Nat} {t1 t2 t : ℝ} (p1 p2 : Fin n → ℝ) (h1 : t1 ≤ t) (h2 : t ≤ t2) (h : t1 < t2) :
    ∃ G, interpVector t1 t2 p1 p2 t = .ok G := by
  unfold interpVector
  rw [coefficient_between h1 h2 h]
  exact ⟨_, rfl⟩

/-! ### Errors -/

theorem bind_eq_ok {α β : Type} {x : Outcome α} {f : α → Outcome β} {b : β} (h : (x >>= f) = .ok b) : ∃ a, x = .ok a ∧ f a = .ok b := by
  cases x with
  | ok a => exact ⟨a, rfl, h⟩
  | throws => exact absurd h (by simp [Outcome.bind_throws])
  | ub => exact absurd h (by simp [Outcome.bind_ub])

theorem bind_ok_of {α β : Type} {x : Outcome α} {f : α → Outcome β} {a : α} (hx : x = .ok a) (hf : ∃ b, f a = .ok b) : ∃ b, (x >>= f) = .ok b := by
  rw [hx, Outcome.bind_ok]
  exact hf

theorem poseErrorsLoop_spec (hl : lib.Lawful) {gt : Traj} (hv : Valid gt) (hg : Increasing gt) : ∀ (l : Traj) (i : Nat)
    (prev : Option (Iso ℝ × Iso ℝ)) (r : Errors (Iso ℝ)), Valid l → (∀ x ∈ prev, Rigid x.1 ∧ Rigid x.2) →
    poseErrorsLoop lib gt i prev l = .ok r →
    ∃ Gs, List.Forall₂ (fun G x => IsReference lib gt x.1 G ∧ Rigid G) Gs l ∧ r.absolute = apesOf Gs l ∧
      r.relative = match prev, Gs, l with
        | some (G', T'), G :: _, (t, p) :: _ => (t, (G'⁻¹ * G)⁻¹ * (T'⁻¹ * poseToMatrix p)) :: rpesOf Gs l
        | _, _, _ => rpesOf Gs l
  | [], i, prev, r, _, _, h => by
    injection h with h
    subst h
    refine ⟨[], List.Forall₂.nil, rfl, ?_⟩
    cases prev <;> rfl
  | (t, p) :: l, i, prev, r, hvl, hp, h => by
    obtain ⟨j, -, h⟩ := bind_eq_ok h
    obtain ⟨G, hG, h⟩ := bind_eq_ok h
    obtain ⟨r', hr', h⟩ := bind_eq_ok h
    injection h with h
    obtain ⟨hGr, hGrig⟩ := poseReference_isReference hl hv hg hG
    have hT : Rigid (poseToMatrix p) := (hvl _ List.mem_cons_self).rigid
    obtain ⟨Gs, h1, h2, h3⟩ := poseErrorsLoop_spec hl hv hg l j (some (G, poseToMatrix p)) r'
      (fun x hx => hvl x (List.mem_cons_of_mem _ hx)) (fun x hx => by
        obtain rfl := Option.some.inj hx
        exact ⟨hGrig, hT⟩) hr'
    have h3' : r'.relative = rpesOf (G :: Gs) ((t, p) :: l) := by
      rw [h3]
      match Gs, l, h1 with
      | [], [], _ => rfl
      | G2 :: Gs, (t2, p2) :: l, _ => rfl
    subst h
    refine ⟨G :: Gs, List.Forall₂.cons ⟨hGr, hGrig⟩ h1, ?_, ?_⟩
    · simp only [apesOf, ldiv_eq hGrig, h2]
    · match prev, hp with
      | none, _ => exact h3'
      | some (G', T'), hp =>
        have := hp _ rfl
        simp only [h3', ldiv_eq this.1, ldiv_eq this.2, ldiv_eq (this.1.inv.mul hGrig)]

theorem withinBounds_ok {α β : Type} {gt : List (ℝ × α)} {l l' : List (ℝ × β)} (h : withinBounds gt l = .ok l') :
    ∃ a b, gt.head? = some a ∧ gt.getLast? = some b ∧ ∀ x, x ∈ l' ↔ x ∈ l ∧ a.1 ≤ x.1 ∧ x.1 ≤ b.1 := by
  unfold withinBounds at h
  split at h
  · rename_i b a hb ha
    injection h with h
    refine ⟨a, b, ha, hb, fun x => ?_⟩
    rw [← h, List.mem_filter, decide_eq_true_iff]
    exact ⟨fun h => ⟨h.1, h.2.2, h.2.1⟩, fun h => ⟨h.1, h.2.2, h.2.1⟩⟩
  · exact absurd h (by simp)

theorem withinBounds_id {α β : Type} {gt : List (ℝ × α)} {l : List (ℝ × β)} {a b : ℝ × α} (ha : gt.head? = some a)
    (hb : gt.getLast? = some b) (h : ∀ x ∈ l, a.1 ≤ x.1 ∧ x.1 ≤ b.1) : withinBounds gt l = .ok l := by
  unfold withinBounds
  rw [ha, hb]
  show Outcome.ok _ = _
  congr 1
  rw [List.filter_eq_self]
  intro x hx
  rw [decide_eq_true_iff]
  exact ⟨(h x hx).2, (h x hx).1⟩

theorem poseErrorsLoop_succeeds {gt : Traj} {a b : ℝ × Pose} (ha : gt.head? = some a)
    (hb : gt.getLast? = some b) : ∀ (l : Traj) (i : Nat) (prev : Option (Iso ℝ × Iso ℝ)), (∀ x ∈ l, a.1 ≤ x.1 ∧ x.1 ≤ b.1) →
    (l.Pairwise fun x y => x.1 ≤ y.1) → (∀ x ∈ l, ∀ k (hk : k < gt.length), k < i → (gt[k]).1 < x.1) →
    ∃ r, poseErrorsLoop lib gt i prev l = .ok r
  | [], _, _, _, _, _ => ⟨_, rfl⟩
  | (t, p) :: l, i, prev, hin, hs, hi => by
    obtain ⟨j, hj, ⟨G, hG⟩, hlt⟩ := reference_succeeds (exact := poseToMatrix) (interp := interpTransform lib)
      (fun t1 t2 a b t h1 h2 => interpTransform_between a b h1.le h2.le (h1.trans h2)) ha hb (hin _ List.mem_cons_self).1
      (hin _ List.mem_cons_self).2 (hi _ List.mem_cons_self)
    have hs' := List.pairwise_cons.1 hs
    obtain ⟨r, hr⟩ := poseErrorsLoop_succeeds ha hb l j (some (G, poseToMatrix p))
      (fun x hx => hin x (List.mem_cons_of_mem _ hx)) hs'.2 fun x hx k hk hkj => lt_of_lt_of_le (hlt k hk hkj) (hs'.1 x hx)
    exact bind_ok_of hj (bind_ok_of (a := G) hG (bind_ok_of hr ⟨_, rfl⟩))

/-- Moving the trajectory does not change the relative errors. -/
theorem poseErrorsLoop_moved {gt : Traj} {M : Iso ℝ} (hM : Rigid M) : ∀ (l l2 : Traj) (i : Nat)
    (prev : Option (Iso ℝ × Iso ℝ)) (r : Errors (Iso ℝ)), Valid l → MovedBy M l l2 → (∀ x ∈ prev, Rigid x.2) →
    poseErrorsLoop lib gt i prev l = .ok r →
    ∃ r2, poseErrorsLoop lib gt i (prev.map fun x => (x.1, M * x.2)) l2 = .ok r2 ∧ r2.relative = r.relative ∧
      r2.absolute.map Prod.fst = r.absolute.map Prod.fst
  | [], l2, i, prev, r, _, hm, _, h => by
    cases hm
    exact ⟨r, h, rfl, rfl⟩
  | (t, p) :: l, l2, i, prev, r, hvl, hm, hp, h => by
    cases hm with
    | cons hx hm =>
    rename_i y l2
    obtain ⟨s, q⟩ := y
    obtain ⟨hst, hq⟩ := hx
    change s = t at hst
    change poseToMatrix q = M * poseToMatrix p at hq
    subst hst
    obtain ⟨j, hj, h⟩ := bind_eq_ok h
    obtain ⟨G, hG, h⟩ := bind_eq_ok h
    obtain ⟨r', hr', h⟩ := bind_eq_ok h
    injection h with h
    have hT : Rigid (poseToMatrix p) := (hvl _ List.mem_cons_self).rigid
    obtain ⟨r2, h1, h2, h3⟩ := poseErrorsLoop_moved hM l l2 j (some (G, poseToMatrix p)) r'
      (fun x hx => hvl x (List.mem_cons_of_mem _ hx)) hm (fun x hx => by
        obtain rfl := Option.some.inj hx
        exact hT) hr'
    refine ⟨⟨(s, ldiv G (poseToMatrix q)) :: r2.absolute, match prev.map fun x => (x.1, M * x.2) with
      | none => r2.relative
      | some (G', T') => (s, ldiv (ldiv G' G) (ldiv T' (poseToMatrix q))) :: r2.relative⟩, ?_, ?_, ?_⟩
    · show (advance gt s i >>= _) = _
      rw [hj, Outcome.bind_ok, hG, Outcome.bind_ok]
      rw [hq]
      rw [show poseErrorsLoop lib gt j (some (G, M * poseToMatrix p)) l2 = .ok r2 from h1]
      rfl
    · subst h
      match prev, hp with
      | none, _ => exact h2
      | some (G', T'), hp =>
          simp only [Option.map_some, hq, h2, ldiv_mul hM (hp _ rfl)]
    · subst h
      simp [h3]

theorem vectorErrorsLoop_spec {n : Nat} {gt : List (ℝ × (Fin n → ℝ))} (hg : Increasing gt) : ∀ (l : List (ℝ × (Fin n → ℝ))) (i : Nat)
    (prev : Option ((Fin n → ℝ) × (Fin n → ℝ))) (r : Errors (Fin n → ℝ)),
    vectorErrorsLoop gt i prev l = .ok r →
    List.Forall₂ (fun e x => e.1 = x.1 ∧ IsVectorReference gt x.1 (x.2 - e.2)) r.absolute l ∧
      r.relative = match prev with
        | none => (r.absolute.zipWith (fun e e' => (e'.1, -(e'.2 - e.2))) r.absolute.tail)
        | some (g, v) => (((0, v - g) :: r.absolute).zipWith (fun e e' => (e'.1, -(e'.2 - e.2))) r.absolute)
  | [], i, prev, r, h => by
    injection h with h
    subst h
    refine ⟨List.Forall₂.nil, ?_⟩
    cases prev <;> rfl
  | (t, v) :: l, i, prev, r, h => by
    obtain ⟨j, -, h⟩ := bind_eq_ok h
    obtain ⟨g, hG, h⟩ := bind_eq_ok h
    obtain ⟨r', hr', h⟩ := bind_eq_ok h
    injection h with h
    obtain ⟨h1, h2⟩ := vectorErrorsLoop_spec hg l j (some (g, v)) r' hr'
    subst h
    refine ⟨List.Forall₂.cons ⟨rfl, ?_⟩ h1, ?_⟩
    · show IsVectorReference gt t (v - (v - g))
      rw [sub_sub_cancel]
      exact vectorReference_isReference hg hG
    · simp only at h2
      have key : r'.relative = (((t, v - g) :: r'.absolute).zipWith (fun e e' => (e'.1, -(e'.2 - e.2))) r'.absolute) := by
        rw [h2]
        cases r'.absolute <;> rfl
      cases prev with
      | none => exact key
      | some x =>
        obtain ⟨g', v'⟩ := x
        show _ :: r'.relative = _ :: _
        rw [key]
        congr 2
        ext k
        simp only [Pi.sub_apply, Pi.neg_apply]
        ring

theorem vectorErrorsLoop_succeeds {n : Nat} {gt : List (ℝ × (Fin n → ℝ))} {a b : ℝ × (Fin n → ℝ)} (ha : gt.head? = some a)
    (hb : gt.getLast? = some b) : ∀ (l : List (ℝ × (Fin n → ℝ))) (i : Nat) (prev : Option ((Fin n → ℝ) × (Fin n → ℝ))),
    (∀ x ∈ l, a.1 ≤ x.1 ∧ x.1 ≤ b.1) →
    (l.Pairwise fun x y => x.1 ≤ y.1) → (∀ x ∈ l, ∀ k (hk : k < gt.length), k < i → (gt[k]).1 < x.1) →
    ∃ r, vectorErrorsLoop gt i prev l = .ok r
  | [], _, _, _, _, _ => ⟨_, rfl⟩
  | (t, v) :: l, i, prev, hin, hs, hi => by
    obtain ⟨j, hj, ⟨g, hG⟩, hlt⟩ := reference_succeeds (exact := id) (interp := interpVector)
      (fun t1 t2 a b t h1 h2 => interpVector_between a b h1.le h2.le (h1.trans h2)) ha hb (hin _ List.mem_cons_self).1
      (hin _ List.mem_cons_self).2 (hi _ List.mem_cons_self)
    have hs' := List.pairwise_cons.1 hs
    obtain ⟨r, hr⟩ := vectorErrorsLoop_succeeds ha hb l j (some (g, v))
      (fun x hx => hin x (List.mem_cons_of_mem _ hx)) hs'.2 fun x hx k hk hkj => lt_of_lt_of_le (hlt k hk hkj) (hs'.1 x hx)
    exact bind_ok_of hj (bind_ok_of (a := g) hG (bind_ok_of hr ⟨_, rfl⟩))

/-! ### The interpolation of a trajectory -/

theorem interpAdvance_spec (gt : Traj) (t : ℝ) : ∀ i, i < gt.length →
    i ≤ interpAdvance gt t i ∧ ∃ h : interpAdvance gt t i < gt.length,
      (∀ k (hk : k < gt.length), i ≤ k → k < interpAdvance gt t i → (gt[k]).1 ≤ t) ∧
      (t < (gt[interpAdvance gt t i]).1 ∨ interpAdvance gt t i + 1 = gt.length) := by
  intro i
  induction hn : gt.length - i generalizing i with
  | zero => intro h; omega
  | succ n ih =>
    intro hi
    rw [interpAdvance]
    by_cases h : i + 1 < gt.length
    · rw [dif_pos h]
      by_cases ht : (gt[i]).1 ≤ t
      · rw [if_pos ht]
        obtain ⟨h1, h2, h3, h4⟩ := ih (i + 1) (by omega) h
        refine ⟨by omega, h2, fun k hk hik hkj => ?_, h4⟩
        rcases Nat.eq_or_lt_of_le hik with rfl | hlt
        · exact ht
        · exact h3 k hk hlt hkj
      · rw [if_neg ht]
        exact ⟨le_refl _, hi, fun k hk h1 h2 => by omega, Or.inl (not_le.1 ht)⟩
    · rw [dif_neg h]
      exact ⟨le_refl _, hi, fun k hk h1 h2 => by omega, Or.inr (by omega)⟩

theorem interpOne_ok (hl : lib.Lawful) {gt : Traj} (hv : Valid gt) (hg : Increasing gt) {i : Nat} {t : ℝ} {p : Pose}
    (h : interpOne lib gt i t = .ok p) : IsReference lib gt t (poseToMatrix p) ∧ p.Valid := by
  cases i with
  | zero => exact absurd h (by simp [interpOne])
  | succ j =>
    obtain ⟨a, ha, h⟩ := bind_eq_ok h
    obtain ⟨b, hb, h⟩ := bind_eq_ok h
    obtain ⟨T, hT, h⟩ := bind_eq_ok h
    injection h with h
    subst h
    rw [at'_ok] at ha hb
    have hma := List.mem_of_getElem? ha
    have hmb := List.mem_of_getElem? hb
    obtain ⟨-, h0, h1, hr, ht, hR⟩ := interpTransform_ok hl (hv _ hma) (hv _ hmb) hT
    have hlt : a.1 < b.1 := hg.lt (Nat.lt_succ_self j) ha hb
    have hpos : 0 < b.1 - a.1 := by linarith
    rw [div_nonneg_iff] at h0
    have hat : a.1 ≤ t := by
      rcases h0 with h0 | h0
      · linarith [h0.1]
      · linarith [h0.2]
    have htb : t ≤ b.1 := by
      rw [div_le_one hpos] at h1
      linarith
    refine ⟨?_, matrixToPose_valid hl hr⟩
    rw [poseToMatrix_matrixToPose hl hr]
    have ua := normalise_valid (hv _ hma)
    have ub := normalise_valid (hv _ hmb)
    rcases eq_or_lt_of_le hat with e | hat
    · refine Or.inl ⟨a.2, by rw [← e]; exact hma, ?_⟩
      subst e
      simp only [sub_self, zero_div, sub_zero, one_smul, zero_smul, add_zero] at ht hR
      rw [hl.interpZero _ _ ua ub] at hR
      exact Iso.ext hR ht
    · rcases eq_or_lt_of_le htb with e | htb
      · refine Or.inl ⟨b.2, by rw [e]; exact hmb, ?_⟩
        subst e
        simp only [div_self hpos.ne', sub_self, zero_smul, one_smul, zero_add] at ht hR
        rw [hl.interpOne _ _ ua ub] at hR
        exact Iso.ext hR ht
      · exact Or.inr ⟨a, b, neighbours_of_get ha hb, hat, htb, ht, hR⟩

theorem interpLoop_ok (hl : lib.Lawful) {gt : Traj} (hv : Valid gt) (hg : Increasing gt) : ∀ (ts : List ℝ) (i : Nat) (r : Traj),
    interpLoop lib gt i ts = .ok r →
    List.Forall₂ (fun t x => x.1 = t ∧ IsReference lib gt t (poseToMatrix x.2)) ts r ∧ Valid r
  | [], i, r, h => by
    injection h with h
    subst h
    exact ⟨List.Forall₂.nil, fun _ h => absurd h List.not_mem_nil⟩
  | t :: ts, i, r, h => by
    obtain ⟨p, hp, h⟩ := bind_eq_ok h
    obtain ⟨r', hr, h⟩ := bind_eq_ok h
    injection h with h
    subst h
    obtain ⟨h1, h2⟩ := interpLoop_ok hl hv hg ts _ r' hr
    obtain ⟨h3, h4⟩ := interpOne_ok hl hv hg hp
    refine ⟨List.Forall₂.cons ⟨rfl, h3⟩ h1, fun x hx => ?_⟩
    rcases List.mem_cons.1 hx with rfl | hx
    · exact h4
    · exact h2 x hx

theorem interpLoop_succeeds {gt : Traj} {a b : ℝ × Pose} (hg : Increasing gt) (ha : gt.head? = some a) (hb : gt.getLast? = some b)
    (h2 : 2 ≤ gt.length) : ∀ (ts : List ℝ) (i : Nat), i < gt.length → (∀ t ∈ ts, a.1 ≤ t ∧ t ≤ b.1) → ts.Pairwise (· ≤ ·) →
    (∀ t ∈ ts, ∀ k (hk : k < gt.length), k < i → (gt[k]).1 ≤ t) → ∃ r, interpLoop lib gt i ts = .ok r
  | [], _, _, _, _, _ => ⟨_, rfl⟩
  | t :: ts, i, hi, hin, hs, hk => by
    obtain ⟨h3, h4, h5, h6⟩ := interpAdvance_spec gt t i hi
    have hs' := List.pairwise_cons.1 hs
    have h0 : (gt[0]'(by omega)).1 ≤ t := by
      have e : gt[0]'(by omega) = a := by
        rw [List.head?_eq_getElem?, List.getElem?_eq_getElem (by omega)] at ha
        exact Option.some.inj ha
      rw [e]
      exact (hin t List.mem_cons_self).1
    have hle : ∀ k (hk : k < gt.length), k < interpAdvance gt t i → (gt[k]).1 ≤ t := by
      intro k hk' hkj
      by_cases hki : k < i
      · exact hk t List.mem_cons_self k hk' hki
      · exact h5 k hk' (by omega) hkj
    have hpos : 0 < interpAdvance gt t i := by
      by_contra hc
      have hz : interpAdvance gt t i = 0 := by omega
      rcases h6 with h6 | h6
      · simp only [hz] at h6
        linarith
      · omega
    obtain ⟨r, hr⟩ := interpLoop_succeeds hg ha hb h2 ts (interpAdvance gt t i) h4 (fun x hx => hin x (List.mem_cons_of_mem _ hx)) hs'.2
      fun x hx k hk' hkj => (hle k hk' hkj).trans (hs'.1 x hx)
    obtain ⟨j, hj⟩ : ∃ j, interpAdvance gt t i = j + 1 := ⟨interpAdvance gt t i - 1, by omega⟩
    have hjl : j < gt.length := by omega
    have hjl' : j + 1 < gt.length := by omega
    have h7 : (gt[j]).1 ≤ t := hle j hjl (by omega)
    have h8 : t ≤ (gt[j + 1]).1 := by
      rcases h6 with h6 | h6
      · simp only [hj] at h6
        exact h6.le
      · have e : gt[j + 1] = b := by
          rw [List.getLast?_eq_getElem?, show gt.length - 1 = j + 1 by omega, List.getElem?_eq_getElem hjl'] at hb
          exact Option.some.inj hb
        rw [e]
        exact (hin t List.mem_cons_self).2
    have h9 : (gt[j]).1 < (gt[j + 1]).1 := List.pairwise_iff_getElem.1 hg j (j + 1) hjl hjl' (Nat.lt_succ_self j)
    obtain ⟨T, hT⟩ := interpTransform_between (lib := lib) (gt[j]).2 (gt[j + 1]).2 h7 h8 h9
    have hone : ∃ p, interpOne lib gt (interpAdvance gt t i) t = .ok p := by
      rw [hj]
      refine bind_ok_of (a := gt[j]) (at'_ok.2 (List.getElem?_eq_getElem hjl))
        (bind_ok_of (a := gt[j + 1]) (at'_ok.2 (List.getElem?_eq_getElem hjl')) (bind_ok_of hT ⟨_, rfl⟩))
    obtain ⟨p, hp⟩ := hone
    exact bind_ok_of hp (bind_ok_of hr ⟨_, rfl⟩)

/-! ### The reference is determined -/

theorem neighbours_get {α : Type} {l : List α} {a b : α} (h : Neighbours l a b) : ∃ j, l[j]? = some a ∧ l[j + 1]? = some b := by
  obtain ⟨l1, l2, rfl⟩ := h
  refine ⟨l1.length, ?_, ?_⟩
  · simp
  · rw [List.getElem?_append_right (by omega)]
    simp

theorem Increasing.eq {α : Type} {l : List (ℝ × α)} (h : Increasing l) {t : ℝ} {p q : α} (hp : (t, p) ∈ l) (hq : (t, q) ∈ l) : p = q := by
  obtain ⟨i, hi⟩ := List.mem_iff_getElem?.1 hp
  obtain ⟨j, hj⟩ := List.mem_iff_getElem?.1 hq
  rcases Nat.lt_trichotomy i j with hij | rfl | hij
  · exact absurd (h.lt hij hi hj) (lt_irrefl t)
  · rw [hi] at hj
    exact (Prod.mk.inj (Option.some.inj hj)).2
  · exact absurd (h.lt hij hj hi) (lt_irrefl t)

theorem Increasing.no_between {α : Type} {l : List (ℝ × α)} (h : Increasing l) {t : ℝ} {p : α} {a b : ℝ × α} (hp : (t, p) ∈ l)
    (hn : Neighbours l a b) (h1 : a.1 < t) (h2 : t < b.1) : False := by
  obtain ⟨i, hi⟩ := List.mem_iff_getElem?.1 hp
  obtain ⟨j, ha, hb⟩ := neighbours_get hn
  have := h.not_le ha hi h1
  have := h.not_le hi hb h2
  omega

theorem Increasing.neighbours_eq {α : Type} {l : List (ℝ × α)} (h : Increasing l) {t : ℝ} {a b a' b' : ℝ × α}
    (hn : Neighbours l a b) (h1 : a.1 < t) (h2 : t < b.1) (hn' : Neighbours l a' b') (h1' : a'.1 < t) (h2' : t < b'.1) :
    a = a' ∧ b = b' := by
  obtain ⟨j, ha, hb⟩ := neighbours_get hn
  obtain ⟨k, ha', hb'⟩ := neighbours_get hn'
  have := h.not_le ha hb' (h1.trans h2')
  have := h.not_le ha' hb (h1'.trans h2)
  obtain rfl : j = k := by omega
  rw [ha] at ha'
  rw [hb] at hb'
  exact ⟨Option.some.inj ha', Option.some.inj hb'⟩

/-! ### Errors and their norms -/

/-- The angle of a rotation about a unit vector by an angle up to half a turn. -/
theorem rotationAngle_rodrigues {a : ℝ} {u : Fin 3 → ℝ} (hu : ∑ i, u i ^ 2 = 1) (h0 : 0 ≤ a) (h1 : a ≤ Real.pi) :
    rotationAngle (rodrigues a u) = a := by
  have e : ((rodrigues a u).trace - 1) / 2 = Real.cos a := by
    rw [Fin.sum_univ_three] at hu
    unfold rodrigues skewOf
    rw [trace_fin_three]
    simp only [Matrix.add_apply, Matrix.smul_apply, Matrix.mul_apply, Fin.sum_univ_three, Matrix.one_apply_eq]
    simp
    linear_combination (Real.cos a - 1) * hu
  unfold rotationAngle
  rw [e, Real.arccos_cos h0 h1]

theorem norm3_smul (a : ℝ) (u : Fin 3 → ℝ) (h0 : 0 ≤ a) (hu : ∑ i, u i ^ 2 = 1) : norm3 (a • u) = a := by
  rw [Fin.sum_univ_three] at hu
  unfold norm3
  have : (a • u) 0 ^ 2 + (a • u) 1 ^ 2 + (a • u) 2 ^ 2 = a ^ 2 := by
    simp only [Pi.smul_apply, smul_eq_mul]
    linear_combination a ^ 2 * hu
  rw [this, Real.sqrt_sq h0]

theorem splitPose_rotation (hl : lib.Lawful) {T : Iso ℝ} (h : Rigid T) : norm3 (splitPose lib T).2 = rotationAngle T.R := by
  have hr := rotation_of h
  conv_rhs => rw [← hl.axang _ hr]
  rw [rotationAngle_rodrigues (hl.axis _ hr) (hl.angle _ hr).1 (hl.angle _ hr).2]
  exact norm3_smul _ _ (hl.angle _ hr).1 (hl.axis _ hr)

theorem norm3_inv_mul {A : Iso ℝ} (h : Rigid A) (B : Iso ℝ) : norm3 (A⁻¹ * B).t = distance A.t B.t := by
  rw [← ldiv_eq h, norm3_ldiv h]

theorem eq_of_inv_mul {A B : Iso ℝ} (h : Rigid A) : A⁻¹ * B = 1 ↔ B = A := by
  constructor
  · intro e
    rw [← mul_inv_cancel_left h B, e, Iso.mul_one]
  · rintro rfl
    exact h.inv_mul

theorem rotation_inv_mul (A B : Iso ℝ) : (A⁻¹ * B).R = A.Rᵀ * B.R := rfl

end Trajectory

end Serpent
