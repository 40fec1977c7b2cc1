import Verif.Lemmas.Evaluation
import Verif.Props.TrajectoryAlignment

/-!
# Registration covariances and velocities: C129, C130
-/

namespace Serpent

namespace Trajectory

open EigenExt Matrix

variable {lib : Lib} {eig : Eig}

theorem at_two (a b c : ℝ) : ![a, b, c] 2 = c := rfl

/-! ## C129: errors compared with covariances -/

theorem printedFraction_last {es : List (Fin 3 → ℝ)} {cs : List (Matrix (Fin 3) (Fin 3) ℝ)} (e : Fin 3 → ℝ)
    (C : Matrix (Fin 3) (Fin 3) ℝ) (hl : es.length = cs.length) (h3 : 2 ≤ es.length) :
    printedFraction eig (es ++ [e]) (cs ++ [C]) = fractionOf (some (normalisedError eig C e)) := by
  have hn : (es ++ [e]).length = (cs ++ [C]).length := by simp [hl]
  unfold printedFraction
  rw [if_neg (not_not.2 hn)]
  have h1 : lengthOf (es ++ [e]).length = es.length + 1 := by
    unfold lengthOf
    rw [List.length_append, List.length_singleton, if_neg (by omega)]
    omega
  rw [h1, normaliseLoop_spec hn es.length 0 none (by simp)]
  simp [hl]

/-- The number that is printed depends on the last error and the last covariance only, if there are three motions or more. -/
theorem C129_fails_only_the_last_counts {es es' : List (Fin 3 → ℝ)} {cs cs' : List (Matrix (Fin 3) (Fin 3) ℝ)} (e : Fin 3 → ℝ)
    (C : Matrix (Fin 3) (Fin 3) ℝ) (hl : es.length = cs.length) (h3 : 2 ≤ es.length) (hl' : es'.length = cs'.length) (h3' : 2 ≤ es'.length) :
    printedFraction eig (es ++ [e]) (cs ++ [C]) = printedFraction eig (es' ++ [e]) (cs' ++ [C]) := by
  rw [printedFraction_last e C hl h3, printedFraction_last e C hl' h3']

/-- One or two motions: an error, because the length of a 1 x 3 or a 2 x 3 matrix is three; none: an error as well. -/
theorem C129_fails_few_motions {es : List (Fin 3 → ℝ)} {cs : List (Matrix (Fin 3) (Fin 3) ℝ)} (h3 : es.length < 3) :
    printedFraction eig es cs = .throws := by
  unfold printedFraction
  split
  · rfl
  · rename_i hl
    have hl := not_not.1 hl
    by_cases h0 : es.length = 0
    · rw [h0]
      rfl
    · have h1 : lengthOf es.length = 3 := by
        unfold lengthOf
        rw [if_neg h0]
        omega
      rw [h1, normaliseLoop_throws hl 3 0 none (by omega) (by omega)]
      rfl

/-- A number of covariances other than that of motions is rejected. -/
theorem C129_counts_must_agree {es : List (Fin 3 → ℝ)} {cs : List (Matrix (Fin 3) (Fin 3) ℝ)} (h : es.length ≠ cs.length) :
    printedFraction eig es cs = .throws := if_pos h

theorem AscendingDiagonal.normalised (h : eig.Lawful) {C : Matrix (Fin 3) (Fin 3) ℝ} (hC : AscendingDiagonal C) (e : Fin 3 → ℝ) :
    ∃ w, normalisedError eig C e = some w ∧ (norm3 w < 1 ↔ Within C e) := by
  obtain ⟨c, rfl, h0, h1, h2⟩ := hC
  have hd := h.ascending_diagonal h1 h2
  have hp : ∀ i, 0 < c i := by
    intro i
    fin_cases i
    · exact h0
    · exact h0.trans_le h1
    · exact h0.trans_le (h1.trans h2)
  obtain ⟨w, hw, hn⟩ := normalisedError_pos h (Matrix.isSymm_diagonal c) (by rw [hd]; exact hp) e
  refine ⟨w, hw, ?_⟩
  rw [within_diagonal (fun i => (hp i).ne'), ← hd, ← hn, sq_lt_one_iff₀ (norm3_nonneg w)]

open Classical in
/-- What holds: for covariances without correlation whose variances do not decrease from x to z, the number printed is one if the last
error lies within two standard deviations, and zero if not. Missing: other covariances (`C129_fails_axes`), the errors before the last
(`C129_fails_fraction`). -/
theorem C129_last_error_partial (h : eig.Lawful) {es : List (Fin 3 → ℝ)} {cs : List (Matrix (Fin 3) (Fin 3) ℝ)} {e : Fin 3 → ℝ}
    {C : Matrix (Fin 3) (Fin 3) ℝ} (hl : es.length = cs.length) (h3 : 2 ≤ es.length) (hC : AscendingDiagonal C) :
    printedFraction eig (es ++ [e]) (cs ++ [C]) = .ok (if Within C e then 1 else 0) := by
  rw [printedFraction_last e C hl h3]
  obtain ⟨w, hw, hn⟩ := hC.normalised h e
  rw [hw, fractionOf]
  simp only [hn]

open Classical in
/-- So the fraction is right if all errors lie within two standard deviations, or none. -/
theorem C129_all_or_none_partial (h : eig.Lawful) {es : List (Fin 3 → ℝ)} {cs : List (Matrix (Fin 3) (Fin 3) ℝ)}
    (hl : es.length = cs.length) (h3 : 3 ≤ es.length) (hC : ∀ C ∈ cs, AscendingDiagonal C)
    (hw : (∀ x ∈ es.zip cs, Within x.2 x.1) ∨ ∀ x ∈ es.zip cs, ¬ Within x.2 x.1) :
    printedFraction eig es cs = .ok (fractionWithin es cs) := by
  obtain ⟨es', e, rfl⟩ := es.eq_nil_or_concat'.resolve_left (by rintro rfl; simp at h3)
  obtain ⟨cs', C, rfl⟩ := cs.eq_nil_or_concat'.resolve_left (by rintro rfl; simp at hl)
  have hl' : es'.length = cs'.length := by simpa using hl
  have hmem : (e, C) ∈ (es' ++ [e]).zip (cs' ++ [C]) := by
    rw [List.zip_append hl']
    simp
  rw [C129_last_error_partial h hl' (by simpa using h3) (hC C (by simp))]
  unfold fractionWithin
  have hne : ((es' ++ [e]).length : ℝ) ≠ 0 := by
    rw [Nat.cast_ne_zero]
    simp
  rcases hw with hw | hw
  · rw [if_pos (hw _ hmem), List.countP_eq_length.2 (fun x hx => decide_eq_true (hw x hx)), List.length_zip, ← hl, Nat.min_self,
      div_self hne]
  · rw [if_neg (hw _ hmem), List.countP_eq_zero.2 (fun x hx => by simpa using hw x hx)]
    simp

/-- Three motions with unit covariances. Two errors are far outside; the last is within. -/
noncomputable def farFarNear : List (Fin 3 → ℝ) := [![5, 0, 0], ![0, 7, 0], ![1, 0, 0]]

def unitCovariances : List (Matrix (Fin 3) (Fin 3) ℝ) := [1, 1, 1]

theorem unit_ascending : AscendingDiagonal (1 : Matrix (Fin 3) (Fin 3) ℝ) := ⟨1, Matrix.diagonal_one.symm, one_pos, le_rfl, le_rfl⟩

theorem within_one (e : Fin 3 → ℝ) : Within 1 e ↔ e ⬝ᵥ e < 4 := by
  unfold Within
  rw [inv_one, Matrix.one_mulVec]
  norm_num

/-- One of three errors lies within two standard deviations, yet "1.000000 within normalised covariance sphere" is printed. -/
theorem C129_fails_fraction (h : eig.Lawful) :
    printedFraction eig farFarNear unitCovariances = .ok 1 ∧ fractionWithin farFarNear unitCovariances = 1 / 3 := by
  constructor
  · refine (C129_last_error_partial h (es := [![5, 0, 0], ![0, 7, 0]]) (cs := [1, 1]) (e := ![1, 0, 0]) (C := 1) rfl le_rfl
      unit_ascending).trans ?_
    rw [if_pos]
    rw [within_one]
    norm_num [dotProduct, Fin.sum_univ_three, at_two]
  · have h1 : ¬ Within 1 ![5, 0, 0] := by
      rw [within_one]
      norm_num [dotProduct, Fin.sum_univ_three, at_two]
    have h2 : ¬ Within 1 ![0, 7, 0] := by
      rw [within_one]
      norm_num [dotProduct, Fin.sum_univ_three, at_two]
    have h3 : Within 1 ![1, 0, 0] := by
      rw [within_one]
      norm_num [dotProduct, Fin.sum_univ_three, at_two]
    simp [fractionWithin, farFarNear, unitCovariances, h1, h2, h3]

/-- A covariance with the largest variance along x. -/
def alongX : Matrix (Fin 3) (Fin 3) ℝ := diagonal ![4, 1, 1]

/-- The eigenvalues are in ascending order, so that the error along x is divided by the deviation of another axis: an error of 1.5
standard deviations counts as lying outside of two, whatever the other errors are. -/
theorem C129_fails_axes (h : eig.Lawful) {es : List (Fin 3 → ℝ)} {cs : List (Matrix (Fin 3) (Fin 3) ℝ)} (hl : es.length = cs.length)
    (h3 : 2 ≤ es.length) : Within alongX ![3, 0, 0] ∧ printedFraction eig (es ++ [![3, 0, 0]]) (cs ++ [alongX]) = .ok 0 := by
  constructor
  · unfold alongX
    rw [within_diagonal (by intro i; fin_cases i <;> norm_num)]
    norm_num [Fin.sum_univ_three, at_two]
  · rw [printedFraction_last _ _ hl h3]
    have hs : alongX.IsSymm := Matrix.isSymm_diagonal _
    have hd : ∀ i, (eig alongX).2 i = 1 ∨ (eig alongX).2 i = 4 := by
      intro i
      obtain ⟨k, hk⟩ := h.col_ne hs i
      have := (mul_right_cancel₀ hk (h.entry (c := ![4, 1, 1]) k i)).symm
      rw [alongX, this]
      fin_cases k <;> norm_num
    have ht : ∑ i, (eig alongX).2 i = 6 := by
      rw [← h.trace hs, alongX, Matrix.trace_diagonal]
      norm_num [Fin.sum_univ_three, at_two]
    rw [Fin.sum_univ_three] at ht
    have h01 := h.ascending _ hs (show (0 : Fin 3) ≤ 1 by decide)
    have h12 := h.ascending _ hs (show (1 : Fin 3) ≤ 2 by decide)
    have h0 : (eig alongX).2 0 = 1 := by
      rcases hd 0 with h0 | h0
      · exact h0
      · linarith
    obtain ⟨w, hw, hn⟩ := normalisedError_pos h hs (fun i => by rcases hd i with h | h <;> rw [h] <;> norm_num) ![3, 0, 0]
    rw [hw, fractionOf, if_neg]
    intro hlt
    rw [← sq_lt_one_iff₀ (norm3_nonneg w), hn, Fin.sum_univ_three, h0] at hlt
    norm_num [at_two] at hlt

/-- The same without correlation and with equal variances: nothing can go wrong with the axes. -/
example (h : eig.Lawful) : printedFraction eig [![3, 0, 0], ![1, 1, 1], ![0, 2, 3]] [diagonal ![4, 4, 4], diagonal ![4, 5, 6], diagonal ![1, 4, 9]] =
    .ok (fractionWithin [![3, 0, 0], ![1, 1, 1], ![0, 2, 3]] [diagonal ![4, 4, 4], diagonal ![4, 5, 6], diagonal ![1, 4, 9]]) := by
  refine C129_all_or_none_partial h rfl le_rfl ?_ (Or.inl ?_)
  · intro C hC
    simp only [List.mem_cons, List.not_mem_nil, or_false] at hC
    rcases hC with rfl | rfl | rfl
    all_goals refine ⟨_, rfl, ?_, ?_, ?_⟩ <;> norm_num [at_two]
  · intro x hx
    simp only [List.zip_cons_cons, List.zip_nil_right, List.mem_cons, List.not_mem_nil, or_false] at hx
    rcases hx with rfl | rfl | rfl
    all_goals
      show Within (diagonal _) _
      rw [within_diagonal (by intro i; fin_cases i <;> norm_num)]
      norm_num [Fin.sum_univ_three, at_two]

/-- A variance that is zero or negative: the point plotted is not a number, and the error does not count as lying within. -/
theorem C129_singular {es : List (Fin 3 → ℝ)} {cs : List (Matrix (Fin 3) (Fin 3) ℝ)} (e : Fin 3 → ℝ)
    {C : Matrix (Fin 3) (Fin 3) ℝ} (hl : es.length = cs.length) (h3 : 2 ≤ es.length) {i : Fin 3} (hC : (eig C).2 i ≤ 0) :
    normalisedError eig C e = none ∧ printedFraction eig (es ++ [e]) (cs ++ [C]) = .ok 0 := by
  have h1 : normalisedError eig C e = none := by
    unfold normalisedError
    rw [if_pos]
    refine ⟨i, ?_⟩
    unfold clipped
    split
    · exact max_eq_right hC
    · rename_i hn
      push Not at hn
      exact le_antisymm hC (hn i)
  exact ⟨h1, by rw [printedFraction_last _ _ hl h3, h1, fractionOf]⟩

/-- The errors are those of the motions from each pose to the next: the translation of the motion less that of the motion of the reference
between the same times. -/
theorem C129_motion_errors (hl : lib.Lawful) {gt l : Traj} (hv : Valid gt) (hg : Increasing gt) (hvl : Valid l) {es : List (Fin 3 → ℝ)}
    (h : motionErrors lib gt l = .ok es) :
    ∃ refs ms ns, List.Forall₂ (fun x p => IsReference lib gt x.1 (poseToMatrix p)) l refs ∧
      Motions (l.map Prod.snd) ms ∧ Motions refs ns ∧ es = List.zipWith (fun p q => p.position - q.position) ms ns := by
  obtain ⟨r, hr, h⟩ := bind_eq_ok h
  obtain ⟨ms, hms, h⟩ := bind_eq_ok h
  obtain ⟨ns, hns, h⟩ := bind_eq_ok h
  obtain ⟨h1, h2⟩ := C120_interpolation_is_the_reference hl hv hg hr
  have key : ∀ {k : List Pose} {q}, (∀ p ∈ k, p.Valid) → relativePoses lib k = .ok q → Motions k q := fun {k q} hk hq => by
    obtain ⟨ha, hb⟩ := C119_relative_poses hl hk
    by_cases h2 : 2 ≤ k.length
    · obtain ⟨q', hq', hm⟩ := ha h2
      rw [hq] at hq'
      obtain rfl := Outcome.ok.inj hq'
      exact hm
    · rw [hb (by omega)] at hq
      exact absurd hq (by simp)
  refine ⟨r.map Prod.snd, ms, ns, ?_, key ?_ hms, key ?_ hns, (Outcome.ok.inj h).symm⟩
  · rw [List.forall₂_map_right_iff]
    rw [List.forall₂_map_left_iff] at h1
    exact h1.imp fun x y hxy => hxy.2
  · intro p hp
    obtain ⟨x, hx, rfl⟩ := List.mem_map.1 hp
    exact hvl x hx
  · intro p hp
    obtain ⟨x, hx, rfl⟩ := List.mem_map.1 hp
    exact h2 x hx

theorem Motions.length : ∀ {k ms : List Pose}, Motions k ms → ms.length + 1 = k.length
  | [_], [], _ => rfl
  | _ :: q :: ps, _ :: ms, h => by
    have := Motions.length (k := q :: ps) (ms := ms) h.2
    simp only [List.length_cons] at this ⊢
    omega

/-- There is one error less than there are poses, and so there must be one covariance less; the errors are found for poses in order
within the time of the reference. -/
theorem C129_motion_errors_succeed (hl : lib.Lawful) {gt l : Traj} (hv : Valid gt) (hg : Increasing gt) (hvl : Valid l)
    (h2 : 2 ≤ gt.length) (h2' : 2 ≤ l.length) {a b : ℝ × Pose} (ha : gt.head? = some a) (hb : gt.getLast? = some b)
    (hs : l.Pairwise fun x y => x.1 ≤ y.1) (hin : ∀ x ∈ l, a.1 ≤ x.1 ∧ x.1 ≤ b.1) :
    ∃ es, motionErrors lib gt l = .ok es ∧ es.length + 1 = l.length := by
  obtain ⟨r, hr⟩ := C120_interpolation_succeeds (lib := lib) hg h2 ha hb (ts := l.map Prod.fst) (by rintro h; simp_all)
    (List.pairwise_map.2 hs) (by
      intro t ht
      obtain ⟨x, hx, rfl⟩ := List.mem_map.1 ht
      exact hin x hx)
  obtain ⟨h3, h4⟩ := C120_interpolation_is_the_reference hl hv hg hr
  have hlen : r.length = l.length := by simpa using h3.length_eq.symm
  obtain ⟨ms, hms, hm⟩ := (C119_relative_poses hl (l := l.map Prod.snd) (by
    intro p hp
    obtain ⟨x, hx, rfl⟩ := List.mem_map.1 hp
    exact hvl x hx)).1 (by simpa using h2')
  obtain ⟨ns, hns, hn⟩ := (C119_relative_poses hl (l := r.map Prod.snd) (by
    intro p hp
    obtain ⟨x, hx, rfl⟩ := List.mem_map.1 hp
    exact h4 x hx)).1 (by rw [List.length_map, hlen]; exact h2')
  refine ⟨_, by rw [motionErrors, hr, Outcome.bind_ok, hms, Outcome.bind_ok, hns, Outcome.bind_ok], ?_⟩
  have h5 := hm.length
  have h6 := hn.length
  rw [List.length_map] at h5 h6
  rw [List.length_zipWith]
  omega

/-- The walk compared with itself, with an offset. -/
example : ∃ es, motionErrors exampleLib walk shifted = .ok es ∧ es.length + 1 = 3 :=
  C129_motion_errors_succeed exampleLib_lawful walk_valid walk_increasing shifted_valid (by simp [walk]) (by simp [shifted])
    (a := (0, still 0 0 0)) (b := (2, turned 3 0 0)) rfl rfl (by simp [shifted]) (by simp [shifted])

open Classical in
/-- The whole script, what holds: the errors are those of the motions between consecutive poses (`C129_motion_errors`), there must be one
covariance for each, and with three motions or more the number printed says whether the last error lies within two standard deviations
of the last covariance. Missing: as for `C129_last_error_partial`. -/
theorem C129_script_partial (h : eig.Lawful) {gt l : Traj} {es : List (Fin 3 → ℝ)} (he : motionErrors lib gt l = .ok es)
    (cs : List (Matrix (Fin 3) (Fin 3) ℝ)) :
    (cs.length ≠ es.length → covarianceFraction lib eig gt l cs = .throws) ∧
    (es.length < 3 → covarianceFraction lib eig gt l cs = .throws) ∧
    (∀ e C, 3 ≤ es.length → cs.length = es.length → es.getLast? = some e → cs.getLast? = some C → AscendingDiagonal C →
      covarianceFraction lib eig gt l cs = .ok (if Within C e then 1 else 0)) := by
  have h0 : covarianceFraction lib eig gt l cs = printedFraction eig es cs := by
    unfold covarianceFraction
    rw [he, Outcome.bind_ok]
  rw [h0]
  refine ⟨fun hn => C129_counts_must_agree (Ne.symm hn), fun hn => C129_fails_few_motions hn, ?_⟩
  intro e C h3 hl hes hcs hC
  obtain ⟨es', rfl⟩ := List.getLast?_eq_some_iff.1 hes
  obtain ⟨cs', rfl⟩ := List.getLast?_eq_some_iff.1 hcs
  simp only [List.length_append, List.length_singleton] at h3 hl
  exact C129_last_error_partial h (by omega) (by omega) hC

/-- The walk has two motions only, so nothing is printed for it whatever the covariances. -/
example (h : eig.Lawful) (cs : List (Matrix (Fin 3) (Fin 3) ℝ)) : covarianceFraction exampleLib eig walk shifted cs = .throws := by
  obtain ⟨es, he, hn⟩ := C129_motion_errors_succeed exampleLib_lawful walk_valid walk_increasing shifted_valid (by simp [walk])
    (by simp [shifted]) (a := (0, still 0 0 0)) (b := (2, turned 3 0 0)) rfl rfl (by simp [shifted]) (by simp [shifted])
  exact (C129_script_partial h he cs).2.1 (by have : shifted.length = 3 := rfl; omega)

/-! ## C130: velocities, and bounds of the time -/

/-- With bounds, the reference consists of the elements from `start` after its first one, for `duration`; an empty reference is an error. -/
theorem C130_bounds {α : Type} {start duration : ℝ} {gt : List (ℝ × α)} :
    (∀ {a}, gt.head? = some a → ∃ part, boundReference (some (start, duration)) gt = .ok part ∧
      Between (a.1 + start) (a.1 + start + duration) gt part) ∧
    (gt = [] → boundReference (some (start, duration)) gt = .throws) ∧ boundReference none gt = .ok gt := by
  refine ⟨fun {a} ha => ?_, fun h => by subst h; rfl, rfl⟩
  match gt, ha with
  | b :: gt, ha =>
    obtain rfl : b = a := Option.some.inj ha
    refine ⟨_, rfl, List.filter_sublist, fun x hx => ?_, fun x hx h1 h2 => ?_⟩
    · exact of_decide_eq_true (List.mem_filter.1 hx).2
    · exact List.mem_filter.2 ⟨hx, decide_eq_true ⟨h1, h2⟩⟩

theorem neighbours_iff {α : Type} {l : List (ℝ × α)} (hl : Increasing l) (a b : ℝ × α) :
    Neighbours l a b ↔ a ∈ l ∧ b ∈ l ∧ a.1 < b.1 ∧ ∀ z ∈ l, z.1 ≤ a.1 ∨ b.1 ≤ z.1 := by
  constructor
  · rintro ⟨l1, l2, rfl⟩
    obtain ⟨h1, h2, h3⟩ := List.pairwise_append.1 hl
    obtain ⟨h4, h5⟩ := List.pairwise_cons.1 h2
    obtain ⟨h6, -⟩ := List.pairwise_cons.1 h5
    refine ⟨by simp, by simp, h4 b (by simp), fun z hz => ?_⟩
    rcases List.mem_append.1 hz with hz | hz
    · exact Or.inl (h3 z hz a (by simp)).le
    · rcases List.mem_cons.1 hz with rfl | hz
      · exact Or.inl le_rfl
      · rcases List.mem_cons.1 hz with rfl | hz
        · exact Or.inr le_rfl
        · exact Or.inr (h6 z hz).le
  · rintro ⟨ha, hb, hab, hz⟩
    obtain ⟨l1, l', rfl⟩ := List.append_of_mem ha
    obtain ⟨h1, h2, h3⟩ := List.pairwise_append.1 hl
    obtain ⟨h4, h5⟩ := List.pairwise_cons.1 h2
    have hb' : b ∈ l' := by
      rcases List.mem_append.1 hb with hb | hb
      · exact absurd (h3 b hb a (by simp)) (not_lt.2 hab.le)
      · rcases List.mem_cons.1 hb with rfl | hb
        · exact absurd hab (lt_irrefl _)
        · exact hb
    match l', hb', h4, h5, hz with
    | c :: l2, hb', h4, h5, hz =>
      rcases List.mem_cons.1 hb' with rfl | hb'
      · exact ⟨l1, l2, rfl⟩
      · have h6 := (List.pairwise_cons.1 h5).1 b hb'
        have h7 := h4 c (by simp)
        rcases hz c (by simp) with h8 | h8
        · exact absurd h7 (not_lt.2 h8)
        · exact absurd h6 (not_lt.2 h8)

theorem neighbours_between {α : Type} {s e : ℝ} {gt part : List (ℝ × α)} (hg : Increasing gt) (hp : Between s e gt part) {a b : ℝ × α}
    (h : Neighbours part a b) : Neighbours gt a b := by
  have hi : Increasing part := List.Pairwise.sublist hp.1 hg
  obtain ⟨ha, hb, hab, hz⟩ := (neighbours_iff hi a b).1 h
  refine (neighbours_iff hg a b).2 ⟨hp.1.subset ha, hp.1.subset hb, hab, fun z hzg => ?_⟩
  by_contra hn
  push Not at hn
  rcases hz z (hp.2.2 z hzg (by linarith [(hp.2.1 a ha).1, hn.1]) (by linarith [(hp.2.1 b hb).2, hn.2])) with h1 | h1
  · exact absurd hn.1 (not_lt.2 h1)
  · exact absurd hn.2 (not_lt.2 h1)

/-- Bounds leave the reference as it is: the reference of the part is that of the whole. -/
theorem C130_bounds_keep_the_reference {s e : ℝ} :
    (∀ {n : Nat} {gt part : List (ℝ × (Fin n → ℝ))} {t g}, Increasing gt → Between s e gt part →
      IsVectorReference part t g → IsVectorReference gt t g) ∧
    ∀ {gt part : Traj} {t G}, Increasing gt → Between s e gt part → IsReference lib part t G → IsReference lib gt t G := by
  refine ⟨fun {n gt part t g} hg hp h => ?_, fun {gt part t G} hg hp h => ?_⟩
  · rcases h with h | ⟨a, b, h1, h2⟩
    · exact Or.inl (hp.1.subset h)
    · exact Or.inr ⟨a, b, neighbours_between hg hp h1, h2⟩
  · rcases h with ⟨p, h, h'⟩ | ⟨a, b, h1, h2⟩
    · exact Or.inl ⟨p, hp.1.subset h, h'⟩
    · exact Or.inr ⟨a, b, neighbours_between hg hp h1, h2⟩

theorem inside_inside {α β : Type} (a b : ℝ × α) (l : List (ℝ × β)) : inside a b (inside a b l) = inside a b l := by
  unfold inside
  rw [List.filter_filter]
  exact List.filter_congr fun x _ => by simp

theorem inside_map {α α' β β' : Type} {f : β → β'} {a b : ℝ × α} {a' b' : ℝ × α'} (ha : a'.1 = a.1) (hb : b'.1 = b.1)
    (l : List (ℝ × β)) : inside a' b' (l.map fun e => (e.1, f e.2)) = (inside a b l).map fun e => (e.1, f e.2) := by
  unfold inside
  rw [List.filter_map, ha, hb]
  rfl

theorem vectorReport_norms (l : List (ℝ × (Fin 3 → ℝ))) : (vectorReport l).norms = (vectorReport l).errors.map (distance 0) := by
  show l.map _ = (l.map Prod.snd).map _
  rw [List.map_map]
  refine List.map_congr_left fun e _ => ?_
  rw [Function.comp_apply, distance_eq, sub_zero]

theorem vectorReport_rmse {l : List (ℝ × (Fin 3 → ℝ))} (h : l ≠ []) :
    0 ≤ (vectorReport l).rmse ∧ l.length * (vectorReport l).rmse ^ 2 = ((vectorReport l).errors.map fun e => distance 0 e ^ 2).sum := by
  have h1 := C121_root_mean_square (l := (vectorReport l).norms) (by simpa [vectorReport] using h)
  refine ⟨h1.1, ?_⟩
  have h2 : (vectorReport l).norms.length = l.length := by simp [vectorReport]
  rw [← h2]
  refine h1.2.trans ?_
  rw [vectorReport_norms, List.map_map]
  rfl

theorem report_spec {gt l : List (ℝ × (Fin 3 → ℝ))} (hg : Increasing gt) {a b : ℝ × (Fin 3 → ℝ)} (ha : gt.head? = some a)
    (hb : gt.getLast? = some b) (hin : inside a b l = l) {r : Errors (Fin 3 → ℝ)} (h : vectorErrors gt l = .ok r) :
    ReportOf gt l (r.absolute.map Prod.fst) (vectorReport r.absolute) ∧
      ChangesOf l (vectorReport r.absolute).errors (r.relative.map Prod.fst) (vectorReport r.relative) := by
  have h1 := C120_vector_errors_use_the_reference hg ha hb h
  have h2 := C121_vector_relative_errors hg h
  rw [hin] at h1
  have ht : r.absolute.map Prod.fst = l.map Prod.fst := by
    refine List.forall₂_eq_eq_eq ▸ ?_
    rw [List.forall₂_map_left_iff, List.forall₂_map_right_iff]
    exact h1.imp fun _ _ h => h.1
  refine ⟨⟨ht, ?_, vectorReport_norms _, fun hne => ?_⟩, ⟨?_, ?_, vectorReport_norms _, fun hne => ?_⟩⟩
  · show List.Forall₂ _ (r.absolute.map Prod.snd) l
    rw [List.forall₂_map_left_iff]
    exact h1.imp fun _ _ h => h.2
  · have h3 := h1.length_eq
    rw [← h3]
    refine vectorReport_rmse ?_
    rintro h4
    rw [h4] at h3
    exact hne (List.length_eq_zero_iff.1 h3.symm)
  · rw [← ht, h2]
    generalize r.absolute = k
    induction k with
    | nil => rfl
    | cons x k ih =>
      cases k with
      | nil => rfl
      | cons y k =>
        simp only [List.tail_cons, List.zipWith_cons_cons, List.map_cons] at ih ⊢
        rw [ih]
  · show r.relative.map Prod.snd = List.zipWith _ (r.absolute.map Prod.snd) (r.absolute.map Prod.snd).tail
    rw [h2, ← List.map_tail, List.zipWith_map, List.map_zipWith]
    simp only [neg_sub]
  · have h3 : (vectorReport r.relative).errors.length = r.relative.length := by simp [vectorReport]
    rw [h3]
    refine vectorReport_rmse ?_
    rintro h4
    exact hne (by rw [h4]; rfl)

/-- What is reported of an odometry's velocities: the samples within the time of the reference; for these, the errors of the linear and
of the angular velocities with respect to the reference at the same times. -/
theorem C130_twist_report {gt l : List (ℝ × Velocity)} (hg : Increasing gt) {a b : ℝ × Velocity} (ha : gt.head? = some a)
    (hb : gt.getLast? = some b) {E : TwistEntry} (h : twistEntry gt l = .ok E) :
    E.timestamps = (inside a b l).map Prod.fst ∧
    E.linearSpeeds = (inside a b l).map (fun x => distance 0 x.2.linear) ∧
    E.angularSpeeds = (inside a b l).map (fun x => distance 0 x.2.angular) ∧
    ReportOf (linears gt) (linears (inside a b l)) E.absoluteTimes E.linearAbsolute ∧
    ChangesOf (linears (inside a b l)) E.linearAbsolute.errors E.relativeTimes E.linearRelative ∧
    ReportOf (angulars gt) (angulars (inside a b l)) E.absoluteTimes E.angularAbsolute ∧
    ChangesOf (angulars (inside a b l)) E.angularAbsolute.errors E.relativeTimes E.angularRelative := by
  unfold twistEntry at h
  rw [withinBounds_inside ha hb, Outcome.bind_ok] at h
  obtain ⟨v, hv, h⟩ := bind_eq_ok h
  obtain ⟨w, hw, h⟩ := bind_eq_ok h
  obtain rfl := Outcome.ok.inj h
  have hgv : Increasing (linears gt) := List.pairwise_map.2 hg
  have hgw : Increasing (angulars gt) := List.pairwise_map.2 hg
  have key := inside_inside a b l
  obtain ⟨h1, h2⟩ := report_spec hgv (a := (a.1, a.2.linear)) (b := (b.1, b.2.linear)) (by rw [linears, List.head?_map, ha]; rfl)
    (by rw [linears, List.getLast?_map, hb]; rfl) (by
      refine (inside_map (a := a) (b := b) (f := Velocity.linear) rfl rfl _).trans ?_
      rw [key]
      rfl) hv
  obtain ⟨h3, h4⟩ := report_spec hgw (a := (a.1, a.2.angular)) (b := (b.1, b.2.angular)) (by rw [angulars, List.head?_map, ha]; rfl)
    (by rw [angulars, List.getLast?_map, hb]; rfl) (by
      refine (inside_map (a := a) (b := b) (f := Velocity.angular) rfl rfl _).trans ?_
      rw [key]
      rfl) hw
  have h5 : (linears (inside a b l)).map Prod.fst = (angulars (inside a b l)).map Prod.fst := by
    simp [linears, angulars]
  refine ⟨rfl, ?_, ?_, h1, h2, ⟨?_, h3.errors, h3.norms, h3.rmse⟩, ⟨?_, h4.errors, h4.norms, h4.rmse⟩⟩
  · exact List.map_congr_left fun e _ => by rw [distance_eq, sub_zero]
  · exact List.map_congr_left fun e _ => by rw [distance_eq, sub_zero]
  · exact h1.times.trans h5
  · exact h2.times.trans (by rw [h5])

/-- It is made for samples in the order of their times. -/
theorem C130_twist_report_succeeds {gt l : List (ℝ × Velocity)} {a b : ℝ × Velocity} (ha : gt.head? = some a)
    (hb : gt.getLast? = some b) (hs : l.Pairwise fun x y => x.1 ≤ y.1) : ∃ E, twistEntry gt l = .ok E := by
  have hs' : (inside a b l).Pairwise fun x y => x.1 ≤ y.1 := hs.filter _
  obtain ⟨v, hv⟩ := C120_vector_errors_succeed (gt := linears gt) (l := linears (inside a b l)) (a := (a.1, a.2.linear))
    (b := (b.1, b.2.linear)) (by rw [linears, List.head?_map, ha]; rfl) (by rw [linears, List.getLast?_map, hb]; rfl)
    (List.pairwise_map.2 hs')
  obtain ⟨w, hw⟩ := C120_vector_errors_succeed (gt := angulars gt) (l := angulars (inside a b l)) (a := (a.1, a.2.angular))
    (b := (b.1, b.2.angular)) (by rw [angulars, List.head?_map, ha]; rfl) (by rw [angulars, List.getLast?_map, hb]; rfl)
    (List.pairwise_map.2 hs')
  unfold twistEntry
  rw [withinBounds_inside ha hb, Outcome.bind_ok, hv, Outcome.bind_ok, hw, Outcome.bind_ok]
  exact ⟨_, rfl⟩

/-- One entry for each odometry, in their order, all with respect to the same reference, the bounded one. -/
theorem C130_twist_data {bounds : Option (ℝ × ℝ)} {gt : List (ℝ × Velocity)} {os : List (List (ℝ × Velocity))} {r : List TwistEntry} :
    twistData bounds gt os = .ok r ↔
      ∃ part, boundReference bounds gt = .ok part ∧ List.Forall₂ (fun o E => twistEntry part o = .ok E) os r := by
  have key : ∀ (part : List (ℝ × Velocity)) os r, twistEntries part os = .ok r ↔ List.Forall₂ (fun o E => twistEntry part o = .ok E) os r := by
    intro part os
    induction os with
    | nil =>
      intro r
      simp only [twistEntries, List.forall₂_nil_left_iff, Outcome.ok.injEq, eq_comm]
    | cons o os ih =>
      intro r
      constructor
      · intro h
        obtain ⟨E, hE, h⟩ := bind_eq_ok h
        obtain ⟨r', hr', h⟩ := bind_eq_ok h
        obtain rfl := Outcome.ok.inj h
        exact List.Forall₂.cons hE ((ih r').1 hr')
      · intro h
        match r, h with
        | E :: r, .cons h1 h2 => rw [twistEntries, h1, Outcome.bind_ok, (ih r).2 h2, Outcome.bind_ok]
  constructor
  · intro h
    obtain ⟨part, hp, h⟩ := bind_eq_ok h
    exact ⟨part, hp, (key part os r).1 h⟩
  · rintro ⟨part, hp, h⟩
    rw [twistData, hp, Outcome.bind_ok]
    exact (key part os r).2 h

/-- The same for poses; the length is that of the bounded reference, and two kinds of alignment at once are an error. -/
theorem C130_pose_data {fp tr : Bool} {o : OptParams} {bounds : Option (ℝ × ℝ)} {gt : Traj} {os : List Traj} {x : Traj × ℝ × List Entry} :
    poseData lib fp tr o bounds gt os = .ok x ↔
      ∃ al, alignmentOf fp tr o = .ok al ∧ boundReference bounds gt = .ok x.1 ∧ trajectoryLength (x.1.map Prod.snd) = .ok x.2.1 ∧
        List.Forall₂ (fun l E => entry lib al x.1 l = .ok E) os x.2.2 := by
  have key : ∀ (al : Alignment) (part : Traj) os r, entries lib al part os = .ok r ↔
      List.Forall₂ (fun l E => entry lib al part l = .ok E) os r := by
    intro al part os
    induction os with
    | nil =>
      intro r
      simp only [entries, List.forall₂_nil_left_iff, Outcome.ok.injEq, eq_comm]
    | cons o os ih =>
      intro r
      constructor
      · intro h
        obtain ⟨E, hE, h⟩ := bind_eq_ok h
        obtain ⟨r', hr', h⟩ := bind_eq_ok h
        obtain rfl := Outcome.ok.inj h
        exact List.Forall₂.cons hE ((ih r').1 hr')
      · intro h
        match r, h with
        | E :: r, .cons h1 h2 => rw [entries, h1, Outcome.bind_ok, (ih r).2 h2, Outcome.bind_ok]
  constructor
  · intro h
    obtain ⟨al, ha, h⟩ := bind_eq_ok h
    obtain ⟨part, hp, h⟩ := bind_eq_ok h
    obtain ⟨len, hlen, h⟩ := bind_eq_ok h
    obtain ⟨r, hr, h⟩ := bind_eq_ok h
    obtain rfl := Outcome.ok.inj h
    exact ⟨al, ha, hp, hlen, (key al part os r).1 hr⟩
  · rintro ⟨al, ha, hp, hlen, h⟩
    rw [poseData, ha, Outcome.bind_ok, hp, Outcome.bind_ok, hlen, Outcome.bind_ok, (key al x.1 os x.2.2).2 h, Outcome.bind_ok]

/-- Bounds that leave no sample of the reference: an error as soon as there is an odometry. -/
theorem C130_empty_bounds {bounds : Option (ℝ × ℝ)} {gt : List (ℝ × Velocity)} (h : boundReference bounds gt = .ok [])
    (o : List (ℝ × Velocity)) (os : List (List (ℝ × Velocity))) : twistData bounds gt (o :: os) = .throws := by
  rw [twistData, h, Outcome.bind_ok]
  rfl

/-- Constant acceleration along x, and a turn. -/
def speeding : List (ℝ × Velocity) := [(0, ⟨![0, 0, 0], 0⟩), (1, ⟨![1, 0, 0], ![0, 0, 1]⟩), (2, ⟨![2, 0, 0], 0⟩), (3, ⟨![3, 0, 0], 0⟩)]

theorem speeding_increasing : Increasing speeding := by
  unfold Increasing speeding
  simp
  norm_num

/-- C130 applies to it, with bounds that leave the second and the third sample. -/
example : Between (0 + 1) (0 + 1 + 3 / 2) speeding [(1, ⟨![1, 0, 0], ![0, 0, 1]⟩), (2, ⟨![2, 0, 0], 0⟩)] := by
  refine ⟨?_, ?_, ?_⟩
  · exact .cons _ (.cons_cons _ (.cons_cons _ (.cons _ .slnil)))
  · simp
    norm_num
  · simp [speeding]
    norm_num

example : ∃ r, twistData none speeding [[(1 / 2, ⟨![1, 1, 1], 0⟩), (5 / 2, ⟨![1, 1, 1], 0⟩), (7, ⟨![1, 1, 1], 0⟩)], []] = .ok r := by
  obtain ⟨E, hE⟩ := C130_twist_report_succeeds (gt := speeding) (a := (0, ⟨![0, 0, 0], 0⟩)) (b := (3, ⟨![3, 0, 0], 0⟩)) rfl rfl
    (l := [(1 / 2, ⟨![1, 1, 1], 0⟩), (5 / 2, ⟨![1, 1, 1], 0⟩), (7, ⟨![1, 1, 1], 0⟩)]) (by simp; norm_num)
  obtain ⟨E', hE'⟩ := C130_twist_report_succeeds (gt := speeding) (a := (0, ⟨![0, 0, 0], 0⟩)) (b := (3, ⟨![3, 0, 0], 0⟩)) rfl rfl
    (l := []) List.Pairwise.nil
  exact ⟨[E, E'], C130_twist_data.2 ⟨speeding, rfl, .cons hE (.cons hE' .nil)⟩⟩

end Trajectory

end Serpent
