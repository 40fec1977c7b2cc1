import Verif.Lemmas.Stereo
import Mathlib.Algebra.Order.BigOperators.Ring.Finset
import Mathlib.Algebra.Order.Field.Rat
import Mathlib.Analysis.Real.Sqrt
import Mathlib.Tactic.NormNum
import Mathlib.Tactic.Linarith
import Mathlib.Tactic.FieldSimp

/-!
# C55: cost functions of windows
-/

namespace Serpent

namespace Stereo

variable {K : Type} [Field K] [LinearOrder K] [IsStrictOrderedRing K]

/-! ### Sums over windows -/

theorem total_nonneg {w : Size} {f : Nat → Nat → K} (h : ∀ r c, 0 ≤ f r c) : 0 ≤ total w f :=
  Finset.sum_nonneg fun r _ => Finset.sum_nonneg fun c _ => h r c

theorem total_eq_zero_iff {w : Size} {f : Nat → Nat → K} (h : ∀ r c, 0 ≤ f r c) :
    total w f = 0 ↔ ∀ r c : Nat, (r : Int) < w.height → (c : Int) < w.width → f r c = 0 := by
  unfold total
  rw [Finset.sum_eq_zero_iff_of_nonneg (fun r _ => Finset.sum_nonneg fun c _ => h r c)]
  constructor
  · intro hz r c hr hc
    have := hz r (Finset.mem_range.2 (by omega))
    rw [Finset.sum_eq_zero_iff_of_nonneg (fun c _ => h r c)] at this
    exact this c (Finset.mem_range.2 (by omega))
  · intro hz r hr
    apply Finset.sum_eq_zero
    intro c hc
    rw [Finset.mem_range] at hr hc
    exact hz r c (by omega) (by omega)

omit [LinearOrder K] [IsStrictOrderedRing K] in
theorem total_congr {w : Size} {f g : Nat → Nat → K}
    (h : ∀ r c : Nat, (r : Int) < w.height → (c : Int) < w.width → f r c = g r c) : total w f = total w g := by
  unfold total
  apply Finset.sum_congr rfl
  intro r hr
  apply Finset.sum_congr rfl
  intro c hc
  rw [Finset.mem_range] at hr hc
  exact h r c (by omega) (by omega)

theorem val_eq_iff {i1 i2 : Image} {t1 t2 : Point} {r c : Nat} :
    (val i1 t1 r c : K) = val i2 t2 r c ↔ i1.pixel (t1.y + r) (t1.x + c) = i2.pixel (t2.y + r) (t2.x + c) := by
  unfold val
  rw [Nat.cast_inj]
  exact Fin.val_inj

omit [LinearOrder K] [IsStrictOrderedRing K] in
theorem val_eq_of_same {i1 i2 : Image} {t1 t2 : Point} {w : Size} (h : SameWindow i1 i2 t1 t2 w) {r c : Nat}
    (hr : (r : Int) < w.height) (hc : (c : Int) < w.width) : (val i1 t1 r c : K) = val i2 t2 r c := by
  unfold val
  rw [h r c hr hc]

theorem val_nonneg (i : Image) (t : Point) (r c : Nat) : (0 : K) ≤ val i t r c := Nat.cast_nonneg _

/-! ### Sum of absolute and squared differences -/

omit [IsStrictOrderedRing K] in
/-- C55, sum of absolute differences: the value. -/
theorem C55_sad_value (i1 i2 : Image) (t1 t2 : Point) (w : Size) (h1 : Inside i1 t1 w) (h2 : Inside i2 t2 w)
    (u1 : i1.is8U = true) (u2 : i2.is8U = true) :
    sad i1 i2 t1 t2 w = .ok (some (total w fun r c => |(val i1 t1 r c : K) - val i2 t2 r c|)) := by
  unfold sad
  rw [if_neg (by simp [u1, u2]), overWindow_ok w _ (fun r c => |(val i1 t1 r c : K) - val i2 t2 r c|) 0]
  · rw [Outcome.bind_ok, zero_add]
  · intro r c hr hc
    rw [image_at h1 hr hc, Outcome.bind_ok, image_at h2 hr hc, Outcome.bind_ok]

omit [LinearOrder K] [IsStrictOrderedRing K] in
/-- C55, sum of squared differences: the value. -/
theorem C55_ssd_value (i1 i2 : Image) (t1 t2 : Point) (w : Size) (h1 : Inside i1 t1 w) (h2 : Inside i2 t2 w)
    (u1 : i1.is8U = true) (u2 : i2.is8U = true) :
    ssd i1 i2 t1 t2 w = .ok (some (total w fun r c => ((val i1 t1 r c : K) - val i2 t2 r c) ^ 2)) := by
  unfold ssd
  rw [if_neg (by simp [u1, u2]), overWindow_ok w _ (fun r c => ((val i1 t1 r c : K) - val i2 t2 r c) ^ 2) 0]
  · rw [Outcome.bind_ok, zero_add]
  · intro r c hr hc
    rw [image_at h1 hr hc, Outcome.bind_ok, image_at h2 hr hc, Outcome.bind_ok]

/-- C55, sum of absolute differences: defined whenever both windows are inside, not negative, symmetric, and zero exactly for
windows with the same pixels. -/
theorem C55_sad (i1 i2 : Image) (t1 t2 : Point) (w : Size) (h1 : Inside i1 t1 w) (h2 : Inside i2 t2 w)
    (u1 : i1.is8U = true) (u2 : i2.is8U = true) :
    ∃ c : K, sad i1 i2 t1 t2 w = .ok (some c) ∧ sad i2 i1 t2 t1 w = .ok (some c) ∧ 0 ≤ c ∧
      (c = 0 ↔ SameWindow i1 i2 t1 t2 w) := by
  refine ⟨_, C55_sad_value i1 i2 t1 t2 w h1 h2 u1 u2, ?_, total_nonneg fun _ _ => abs_nonneg _, ?_⟩
  · rw [C55_sad_value i2 i1 t2 t1 w h2 h1 u2 u1]
    simp only [abs_sub_comm]
  · rw [total_eq_zero_iff fun _ _ => abs_nonneg _]
    constructor
    · intro h r c hr hc
      exact val_eq_iff.1 (sub_eq_zero.1 (abs_eq_zero.1 (h r c hr hc)))
    · intro h r c hr hc
      rw [val_eq_of_same h hr hc, sub_self, abs_zero]

/-- C55, sum of squared differences: defined whenever both windows are inside, not negative, symmetric, and zero exactly for
windows with the same pixels. -/
theorem C55_ssd (i1 i2 : Image) (t1 t2 : Point) (w : Size) (h1 : Inside i1 t1 w) (h2 : Inside i2 t2 w)
    (u1 : i1.is8U = true) (u2 : i2.is8U = true) :
    ∃ c : K, ssd i1 i2 t1 t2 w = .ok (some c) ∧ ssd i2 i1 t2 t1 w = .ok (some c) ∧ 0 ≤ c ∧
      (c = 0 ↔ SameWindow i1 i2 t1 t2 w) := by
  refine ⟨_, C55_ssd_value i1 i2 t1 t2 w h1 h2 u1 u2, ?_, total_nonneg fun _ _ => sq_nonneg _, ?_⟩
  · rw [C55_ssd_value i2 i1 t2 t1 w h2 h1 u2 u1]
    refine congrArg _ (congrArg _ (total_congr fun r c _ _ => ?_))
    rw [← neg_sub, neg_sq]
  · rw [total_eq_zero_iff fun _ _ => sq_nonneg _]
    constructor
    · intro h r c hr hc
      exact val_eq_iff.1 (sub_eq_zero.1 (pow_eq_zero_iff (two_ne_zero)|>.1 (h r c hr hc)))
    · intro h r c hr hc
      rw [val_eq_of_same h hr hc, sub_self, zero_pow two_ne_zero]

omit [IsStrictOrderedRing K] in
/-- C55. An image that is not of type `CV_8U` is refused by all cost functions. -/
theorem C55_type (i1 i2 : Image) (t1 t2 : Point) (w : Size) (u : i1.is8U = false) :
    (sad i1 i2 t1 t2 w : Outcome (Option K)) = .throws ∧ (ssd i1 i2 t1 t2 w : Outcome (Option K)) = .throws ∧
    (zmsad i1 i2 t1 t2 w : Outcome (Option K)) = .throws ∧ (lssad i1 i2 t1 t2 w : Outcome (Option K)) = .throws := by
  refine ⟨?_, ?_, ?_, ?_⟩
  · unfold sad; rw [if_pos (Or.inl u)]
  · unfold ssd; rw [if_pos (Or.inl u)]
  · unfold zmsad zmsadFrom; rw [if_pos u]
  · unfold lssad lssadFrom; rw [if_pos u]

/-! ### The functions with an accumulator that is not initialised -/

omit [IsStrictOrderedRing K] in
/-- C55 fails: the other three cost functions read an accumulator that is not initialised, for all windows. -/
theorem C55_fails_uninitialised (i1 i2 : Image) (t1 t2 : Point) (w : Size) (u1 : i1.is8U = true) (sqrt : K → K) :
    (zmsad i1 i2 t1 t2 w : Outcome (Option K)) = .ub ∧ (lssad i1 i2 t1 t2 w : Outcome (Option K)) = .ub ∧
    nncc sqrt i1 i2 t1 t2 w = .ub := by
  refine ⟨?_, ?_, ?_⟩
  · unfold zmsad zmsadFrom; rw [if_neg (by simp [u1])]; rfl
  · unfold lssad lssadFrom; rw [if_neg (by simp [u1])]; rfl
  · unfold nncc nnccFrom; rw [if_neg (by simp [u1])]; rfl

omit [IsStrictOrderedRing K] in
/-- C55 fails: so do the matchers that are built from them, for every image and keypoint. -/
theorem C55_fails_generate (image : Image) (t : Point) (w : Size) (sqrt : K → K) :
    (generateZmsad uninitialised w image t : Outcome (CostFunction K)) = .ub ∧
    (generateLssad uninitialised w image t : Outcome (CostFunction K)) = .ub ∧
    generateNncc sqrt uninitialised w image t = .ub := ⟨rfl, rfl, rfl⟩

/-! ### The same functions with the accumulator set to zero -/

omit [LinearOrder K] [IsStrictOrderedRing K] in
theorem windowMean_zero {i : Image} {t : Point} {w : Size} (h : Inside i t w) :
    windowMeanFrom (.ok (0 : K)) i t w = .ok (mean w fun r c => val i t r c) := by
  unfold windowMeanFrom windowSumFrom
  rw [Outcome.bind_ok, overWindow_ok w _ (fun r c => (val i t r c : K)) 0 (fun r c hr hc => image_at h hr hc),
    Outcome.bind_ok, zero_add]
  rfl

omit [LinearOrder K] [IsStrictOrderedRing K] in
theorem windowSumSquares_zero {i : Image} {t : Point} {w : Size} (h : Inside i t w) :
    windowSumSquaresFrom (.ok (0 : K)) i t w = .ok (total w fun r c => (val i t r c : K) ^ 2) := by
  unfold windowSumSquaresFrom
  rw [Outcome.bind_ok, overWindow_ok w _ (fun r c => (val i t r c : K) ^ 2) 0, zero_add]
  intro r c hr hc
  rw [image_at h hr hc, Outcome.bind_ok]

/-- C55, zero mean sum of absolute differences, for accumulators that start at zero: the sum of the absolute differences of
the deviations from the means; not negative, symmetric, zero for the same windows, and unchanged if the second window is
brighter by a constant. Missing: the accumulators of the code have no initial value. -/
theorem C55_zmsad_partial (i1 i2 : Image) (t1 t2 : Point) (w : Size) (h1 : Inside i1 t1 w) (h2 : Inside i2 t2 w)
    (u1 : i1.is8U = true) (u2 : i2.is8U = true) (hw : 0 < w.width) (hh : 0 < w.height) :
    ∃ c : K, zmsadFrom (.ok 0) i1 i2 t1 t2 w = .ok (some c) ∧ zmsadFrom (.ok 0) i2 i1 t2 t1 w = .ok (some c) ∧ 0 ≤ c ∧
      c = total w (fun r c => |(val i1 t1 r c - mean w fun r c => (val i1 t1 r c : K)) -
        (val i2 t2 r c - mean w fun r c => val i2 t2 r c)|) ∧
      (SameWindow i1 i2 t1 t2 w → c = 0) ∧
      ((∃ b : K, ∀ r c : Nat, (r : Int) < w.height → (c : Int) < w.width → (val i1 t1 r c : K) = val i2 t2 r c + b) →
        c = 0) := by
  have value : ∀ i1 i2 t1 t2, Inside i1 t1 w → Inside i2 t2 w → i1.is8U = true → i2.is8U = true →
      (zmsadFrom (.ok 0) i1 i2 t1 t2 w : Outcome (Option K)) =
        .ok (some (total w (fun r c => |(val i1 t1 r c - mean w fun r c => (val i1 t1 r c : K)) -
          (val i2 t2 r c - mean w fun r c => val i2 t2 r c)|))) := by
    intro i1 i2 t1 t2 h1 h2 u1 u2
    unfold zmsadFrom zmsadMean
    rw [if_neg (by simp [u1]), windowMean_zero h1, Outcome.bind_ok, if_neg (by simp [u1, u2]), windowMean_zero h2,
      Outcome.bind_ok, overWindow_ok w _ (fun r c => |(val i1 t1 r c - mean w fun r c => (val i1 t1 r c : K)) -
          (val i2 t2 r c - mean w fun r c => val i2 t2 r c)|) 0]
    · rw [Outcome.bind_ok, zero_add]
    · intro r c hr hc
      rw [image_at h1 hr hc, Outcome.bind_ok, image_at h2 hr hc, Outcome.bind_ok]
      refine congrArg _ (congrArg _ ?_)
      ring
  have offset : (∃ b : K, ∀ r c : Nat, (r : Int) < w.height → (c : Int) < w.width →
      (val i1 t1 r c : K) = val i2 t2 r c + b) → total w (fun r c => |(val i1 t1 r c - mean w fun r c => (val i1 t1 r c : K)) -
        (val i2 t2 r c - mean w fun r c => val i2 t2 r c)|) = 0 := by
    rintro ⟨b, hb⟩
    have harea : ((w.width * w.height : Int) : K) ≠ 0 := by
      have : w.width * w.height ≠ 0 := (mul_pos hw hh).ne'
      exact_mod_cast this
    have hsum : total w (fun r c => (val i1 t1 r c : K)) =
        total w (fun r c => (val i2 t2 r c : K)) + b * ((w.width * w.height : Int) : K) := by
      rw [total_congr hb]
      unfold total
      simp only [Finset.sum_add_distrib, Finset.sum_const, Finset.card_range, nsmul_eq_mul]
      have e1 : ((w.width.toNat : Nat) : K) = (w.width : K) := by
        have : ((w.width.toNat : Nat) : Int) = w.width := Int.toNat_of_nonneg hw.le
        exact_mod_cast congrArg (Int.cast : Int → K) this
      have e2 : ((w.height.toNat : Nat) : K) = (w.height : K) := by
        have : ((w.height.toNat : Nat) : Int) = w.height := Int.toNat_of_nonneg hh.le
        exact_mod_cast congrArg (Int.cast : Int → K) this
      rw [e1, e2]
      push_cast
      ring
    have hmean : mean w (fun r c => (val i1 t1 r c : K)) = mean w (fun r c => (val i2 t2 r c : K)) + b := by
      unfold mean
      rw [hsum]
      field_simp
    rw [total_eq_zero_iff fun _ _ => abs_nonneg _]
    intro r c hr hc
    rw [abs_eq_zero, hb r c hr hc, hmean]
    ring
  refine ⟨_, value i1 i2 t1 t2 h1 h2 u1 u2, ?_, total_nonneg fun _ _ => abs_nonneg _, rfl, ?_, offset⟩
  · rw [value i2 i1 t2 t1 h2 h1 u2 u1]
    simp only [abs_sub_comm]
  · intro hs
    exact offset ⟨0, fun r c hr hc => by rw [val_eq_of_same hs hr hc, add_zero]⟩

theorem total_pos {i : Image} {t : Point} {w : Size} (h : NotBlack i t w) : 0 < total w fun r c => (val i t r c : K) := by
  refine lt_of_le_of_ne (total_nonneg fun r c => val_nonneg i t r c) (Ne.symm ?_)
  intro hz
  rw [total_eq_zero_iff fun r c => val_nonneg i t r c] at hz
  obtain ⟨r, c, hr, hc, hn⟩ := h
  have := hz r c hr hc
  unfold val at this
  rw [Nat.cast_eq_zero] at this
  exact hn (Fin.ext this)

theorem total_sq_pos {i : Image} {t : Point} {w : Size} (h : NotBlack i t w) :
    0 < total w fun r c => (val i t r c : K) ^ 2 := by
  refine lt_of_le_of_ne (total_nonneg fun r c => sq_nonneg _) (Ne.symm ?_)
  intro hz
  rw [total_eq_zero_iff fun r c => sq_nonneg _] at hz
  obtain ⟨r, c, hr, hc, hn⟩ := h
  have := pow_eq_zero_iff (two_ne_zero) |>.1 (hz r c hr hc)
  unfold val at this
  rw [Nat.cast_eq_zero] at this
  exact hn (Fin.ext this)

/-- C55, locally scaled sum of absolute differences, for accumulators that start at zero: if the second window is not black,
the sum of the absolute differences of the first window and the second, scaled to the same mean; not negative, and zero for
the same windows and for windows of which one is a multiple of the other. Missing: the accumulators of the code have no
initial value, and for a black second window the result is not a number. -/
theorem C55_lssad_partial (i1 i2 : Image) (t1 t2 : Point) (w : Size) (h1 : Inside i1 t1 w) (h2 : Inside i2 t2 w)
    (u1 : i1.is8U = true) (u2 : i2.is8U = true) (hb : NotBlack i2 t2 w) (hw : 0 < w.width) (hh : 0 < w.height) :
    ∃ c : K, lssadFrom (.ok 0) i1 i2 t1 t2 w = .ok (some c) ∧ 0 ≤ c ∧
      c = total w (fun r c => |(val i1 t1 r c : K) -
        (mean w fun r c => val i1 t1 r c) / (mean w fun r c => val i2 t2 r c) * val i2 t2 r c|) ∧
      (SameWindow i1 i2 t1 t2 w → c = 0) ∧
      ((∃ a : K, ∀ r c : Nat, (r : Int) < w.height → (c : Int) < w.width → (val i1 t1 r c : K) = a * val i2 t2 r c) →
        c = 0) := by
  have harea : ((w.width * w.height : Int) : K) ≠ 0 := by
    have : w.width * w.height ≠ 0 := (mul_pos hw hh).ne'
    exact_mod_cast this
  have hpos : 0 < total w fun r c => (val i2 t2 r c : K) := total_pos hb
  have hmean : (mean w fun r c => (val i2 t2 r c : K)) ≠ 0 := div_ne_zero hpos.ne' harea
  have scaled : (∃ a : K, ∀ r c : Nat, (r : Int) < w.height → (c : Int) < w.width →
      (val i1 t1 r c : K) = a * val i2 t2 r c) → total w (fun r c => |(val i1 t1 r c : K) -
        (mean w fun r c => val i1 t1 r c) / (mean w fun r c => val i2 t2 r c) * val i2 t2 r c|) = 0 := by
    rintro ⟨a, ha⟩
    have hm : (mean w fun r c => (val i1 t1 r c : K)) = a * mean w fun r c => val i2 t2 r c := by
      unfold mean
      rw [total_congr ha, ← mul_div_assoc]
      congr 1
      unfold total
      simp only [Finset.mul_sum]
    rw [total_eq_zero_iff fun _ _ => abs_nonneg _]
    intro r c hr hc
    rw [abs_eq_zero, ha r c hr hc, hm, mul_div_assoc, div_self hmean]
    ring
  refine ⟨_, ?_, total_nonneg fun _ _ => abs_nonneg _, rfl, ?_, scaled⟩
  · unfold lssadFrom lssadMean
    rw [if_neg (by simp [u1]), windowMean_zero h1, Outcome.bind_ok, if_neg (by simp [u1, u2]), windowMean_zero h2,
      Outcome.bind_ok]
    dsimp only
    rw [overWindow_ok w _ (fun r c => |(val i1 t1 r c : K) -
        (mean w fun r c => val i1 t1 r c) / (mean w fun r c => val i2 t2 r c) * val i2 t2 r c|) 0]
    · rw [Outcome.bind_ok, zero_add, if_neg hmean]
    · intro r c hr hc
      rw [image_at h1 hr hc, Outcome.bind_ok, image_at h2 hr hc, Outcome.bind_ok]
  · intro hs
    exact scaled ⟨1, fun r c hr hc => by rw [val_eq_of_same hs hr hc, one_mul]⟩

/-- C55, negative normalised cross correlation, for accumulators that start at zero: for windows that are not black, the negative
cosine of the angle between the windows as vectors of pixels; between -1 and 0, and -1 (the best value) for the same windows. Missing: the accumulators of the code have no initial value, and for
black windows the result is not a number. -/
theorem C55_nncc_partial (i1 i2 : Image) (t1 t2 : Point) (w : Size) (h1 : Inside i1 t1 w) (h2 : Inside i2 t2 w)
    (u1 : i1.is8U = true) (u2 : i2.is8U = true) (b1 : NotBlack i1 t1 w) (b2 : NotBlack i2 t2 w) :
    ∃ c : ℝ, nnccFrom Real.sqrt (.ok 0) i1 i2 t1 t2 w = .ok (some c) ∧ -1 ≤ c ∧ c ≤ 0 ∧
      c = -((total w fun r c => (val i1 t1 r c : ℝ) * val i2 t2 r c) /
        Real.sqrt ((total w fun r c => (val i1 t1 r c : ℝ) ^ 2) * total w fun r c => (val i2 t2 r c : ℝ) ^ 2)) ∧
      (SameWindow i1 i2 t1 t2 w → c = -1) := by
  have p1 : (0 : ℝ) < total w fun r c => (val i1 t1 r c : ℝ) ^ 2 := total_sq_pos b1
  have p2 : (0 : ℝ) < total w fun r c => (val i2 t2 r c : ℝ) ^ 2 := total_sq_pos b2
  have pp := mul_pos p1 p2
  have ps := Real.sqrt_pos.2 pp
  have cc0 : (0 : ℝ) ≤ total w fun r c => (val i1 t1 r c : ℝ) * val i2 t2 r c :=
    total_nonneg fun r c => mul_nonneg (val_nonneg _ _ _ _) (val_nonneg _ _ _ _)
  have cs : (total w fun r c => (val i1 t1 r c : ℝ) * val i2 t2 r c) ≤
      Real.sqrt ((total w fun r c => (val i1 t1 r c : ℝ) ^ 2) * total w fun r c => (val i2 t2 r c : ℝ) ^ 2) := by
    apply Real.le_sqrt_of_sq_le
    have := Finset.sum_mul_sq_le_sq_mul_sq (Finset.range w.height.toNat ×ˢ Finset.range w.width.toNat)
      (fun x => (val i1 t1 x.1 x.2 : ℝ)) (fun x => (val i2 t2 x.1 x.2 : ℝ))
    unfold total
    simpa only [Finset.sum_product] using this
  refine ⟨-((total w fun r c => (val i1 t1 r c : ℝ) * val i2 t2 r c) /
      Real.sqrt ((total w fun r c => (val i1 t1 r c : ℝ) ^ 2) * total w fun r c => (val i2 t2 r c : ℝ) ^ 2)), ?_, ?_, ?_, rfl, ?_⟩
  · unfold nnccFrom nnccSquares
    rw [if_neg (by simp [u1]), windowSumSquares_zero h1, Outcome.bind_ok, if_neg (by simp [u1, u2]),
      windowSumSquares_zero h2, Outcome.bind_ok,
      overWindow_ok w _ (fun r c => (val i1 t1 r c : ℝ) * val i2 t2 r c) 0]
    · rw [Outcome.bind_ok, zero_add, if_neg pp.ne']
    · intro r c hr hc
      rw [image_at h1 hr hc, Outcome.bind_ok, image_at h2 hr hc, Outcome.bind_ok]
  · rw [neg_le_neg_iff, div_le_one ps]
    exact cs
  · rw [neg_nonpos]
    exact div_nonneg cc0 ps.le
  · intro hs
    have e1 : (total w fun r c => (val i1 t1 r c : ℝ) * val i2 t2 r c) = total w fun r c => (val i2 t2 r c : ℝ) ^ 2 :=
      total_congr fun r c hr hc => by rw [val_eq_of_same hs hr hc]; ring
    have e2 : (total w fun r c => (val i1 t1 r c : ℝ) ^ 2) = total w fun r c => (val i2 t2 r c : ℝ) ^ 2 :=
      total_congr fun r c hr hc => by rw [val_eq_of_same hs hr hc]
    rw [e1, e2, Real.sqrt_mul_self p2.le, div_self p2.ne']

omit [IsStrictOrderedRing K] in
/-- C55, the functions that the matchers make for a window, for accumulators that start at zero: evaluated for that window, with
the mean (or sum of squares) computed beforehand, they give what the cost functions give. Missing: the accumulators of the code
have no initial value. -/
theorem C55_generated_partial (image : Image) (t : Point) (w : Size) (h : Inside image t w) (u : image.is8U = true)
    (sqrt : K → K) :
    (∃ f, generateZmsad (.ok (0 : K)) w image t = .ok f ∧
      ∀ i2 t2, f image i2 t t2 w = zmsadFrom (.ok 0) image i2 t t2 w) ∧
    (∃ f, generateLssad (.ok (0 : K)) w image t = .ok f ∧
      ∀ i2 t2, f image i2 t t2 w = lssadFrom (.ok 0) image i2 t t2 w) ∧
    (∃ f, generateNncc sqrt (.ok (0 : K)) w image t = .ok f ∧
      ∀ i2 t2, f image i2 t t2 w = nnccFrom sqrt (.ok 0) image i2 t t2 w) ∧
    (generateSad image t : Outcome (CostFunction K)) = .ok sad ∧
    (generateSsd image t : Outcome (CostFunction K)) = .ok ssd := by
  refine ⟨⟨zmsadMean (.ok 0) (mean w fun r c => val image t r c), ?_, fun i2 t2 => ?_⟩,
    ⟨lssadMean (.ok 0) (mean w fun r c => val image t r c), ?_, fun i2 t2 => ?_⟩,
    ⟨nnccSquares sqrt (.ok 0) (total w fun r c => (val image t r c : K) ^ 2), ?_, fun i2 t2 => ?_⟩, rfl, rfl⟩
  · unfold generateZmsad; rw [windowMean_zero h, Outcome.bind_ok]
  · unfold zmsadFrom; rw [if_neg (by simp [u]), windowMean_zero h, Outcome.bind_ok]
  · unfold generateLssad; rw [windowMean_zero h, Outcome.bind_ok]
  · unfold lssadFrom; rw [if_neg (by simp [u]), windowMean_zero h, Outcome.bind_ok]
  · unfold generateNncc; rw [windowSumSquares_zero h, Outcome.bind_ok]
  · unfold nnccFrom; rw [if_neg (by simp [u]), windowSumSquares_zero h, Outcome.bind_ok]

/-! ### Concrete windows -/

/-- A 4x4 image with a gradient, and a brighter copy. -/
def gradient : Image := ⟨4, 4, true, fun r c => Fin.ofNat 256 (10 * r.toNat + c.toNat)⟩
def brighter : Image := ⟨4, 4, true, fun r c => Fin.ofNat 256 (10 * r.toNat + c.toNat + 7)⟩

example : sad gradient brighter ⟨0, 0⟩ ⟨1, 1⟩ ⟨3, 3⟩ = .ok (some (162 : ℚ)) := by decide +kernel
example : ssd gradient gradient ⟨0, 0⟩ ⟨1, 0⟩ ⟨3, 3⟩ = .ok (some (9 : ℚ)) := by decide +kernel
example : zmsadFrom (.ok 0) gradient brighter ⟨0, 0⟩ ⟨0, 0⟩ ⟨3, 3⟩ = .ok (some (0 : ℚ)) := by decide +kernel
example : Inside gradient ⟨1, 1⟩ ⟨3, 3⟩ ∧ NotBlack gradient ⟨1, 1⟩ ⟨3, 3⟩ :=
  ⟨by unfold Inside; decide, 0, 0, by decide, by decide, by decide⟩
-- one pixel outside
example : (sad gradient gradient ⟨2, 1⟩ ⟨0, 0⟩ ⟨3, 3⟩ : Outcome (Option ℚ)) = .ub := by decide +kernel

end Stereo

end Serpent
