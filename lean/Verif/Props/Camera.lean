import Verif.Model.Camera
import Verif.Spec.Camera
import Mathlib.Tactic.Ring
import Mathlib.Tactic.FinCases
import Mathlib.Data.Fin.VecNotation
import Mathlib.Data.Fintype.Basic
import Mathlib.Tactic.FieldSimp
import Mathlib.Tactic.NormNum
import Mathlib.Tactic.Linarith

/-!
# Image operations and camera info (C68, C103, C104, C105)
-/

namespace Serpent

namespace Camera

variable {K α : Type}

/-- The operation object for a motion: which option of `Rotate` and `Flip` stands for it. -/
def operationOf : Motion → Operation
  | .cw => .rotate (some .cw90)
  | .half => .rotate (some .half)
  | .ccw => .rotate (some .ccw90)
  | .mirrorX => newFlip .horiz
  | .mirrorY => newFlip .vert
  | .mirrorXY => newFlip .both

/-- The result shows at each place what the image showed at the place that moved there. -/
def Moved (ms : List Motion) (a b : Image α) : Prop :=
  (b.width, b.height) = sizeAfterAll ms (a.width, a.height) ∧
  ∀ r c, r < a.height → c < a.width → ∃ r' c', r' < b.height ∧ c' < b.width ∧
    pixelCentre r' c' = planeAfterAll ms (a.width, a.height) (pixelCentre r c) ∧ b.px r' c' = a.px r c

theorem applyImage_moved (m : Motion) (a : Image α) : ∃ b, applyImage (operationOf m) a = .ok b ∧ Moved [m] a b := by
  cases m <;> refine ⟨_, rfl, rfl, ?_⟩ <;> intro r c hr hc
  · refine ⟨c, a.height - 1 - r, hc, by show a.height - 1 - r < a.height; omega, ?_, ?_⟩
    · simp only [pixelCentre, planeAfterAll, planeAfter, Prod.mk.injEq, and_true]
      rw [Nat.cast_sub (by omega), Nat.cast_sub (by omega)]
      push_cast
      ring
    · show a.px (a.height - 1 - (a.height - 1 - r)) c = _
      congr 1; omega
  · refine ⟨a.height - 1 - r, a.width - 1 - c, by show a.height - 1 - r < a.height; omega, by show a.width - 1 - c < a.width; omega, ?_, ?_⟩
    · simp only [pixelCentre, planeAfterAll, planeAfter, Prod.mk.injEq]
      constructor <;> rw [Nat.cast_sub (by omega), Nat.cast_sub (by omega)] <;> push_cast <;> ring
    · show a.px (a.height - 1 - (a.height - 1 - r)) (a.width - 1 - (a.width - 1 - c)) = _
      congr 1 <;> omega
  · refine ⟨a.width - 1 - c, r, by show a.width - 1 - c < a.width; omega, hr, ?_, ?_⟩
    · simp only [pixelCentre, planeAfterAll, planeAfter, Prod.mk.injEq, true_and]
      rw [Nat.cast_sub (by omega), Nat.cast_sub (by omega)]
      push_cast
      ring
    · show a.px r (a.width - 1 - (a.width - 1 - c)) = _
      congr 1; omega
  · refine ⟨r, a.width - 1 - c, hr, by show a.width - 1 - c < a.width; omega, ?_, ?_⟩
    · simp only [pixelCentre, planeAfterAll, planeAfter, Prod.mk.injEq, and_true]
      rw [Nat.cast_sub (by omega), Nat.cast_sub (by omega)]
      push_cast
      ring
    · show a.px r (a.width - 1 - (a.width - 1 - c)) = _
      congr 1; omega
  · refine ⟨a.height - 1 - r, c, by show a.height - 1 - r < a.height; omega, hc, ?_, ?_⟩
    · simp only [pixelCentre, planeAfterAll, planeAfter, Prod.mk.injEq, true_and]
      rw [Nat.cast_sub (by omega), Nat.cast_sub (by omega)]
      push_cast
      ring
    · show a.px (a.height - 1 - (a.height - 1 - r)) c = _
      congr 1; omega
  · refine ⟨a.height - 1 - r, a.width - 1 - c, by show a.height - 1 - r < a.height; omega, by show a.width - 1 - c < a.width; omega, ?_, ?_⟩
    · simp only [pixelCentre, planeAfterAll, planeAfter, Prod.mk.injEq]
      constructor <;> rw [Nat.cast_sub (by omega), Nat.cast_sub (by omega)] <;> push_cast <;> ring
    · show a.px (a.height - 1 - (a.height - 1 - r)) (a.width - 1 - (a.width - 1 - c)) = _
      congr 1 <;> omega

theorem Moved.cons {m : Motion} {ms : List Motion} {a b c : Image α} (h1 : Moved [m] a b) (h2 : Moved ms b c) : Moved (m :: ms) a c := by
  obtain ⟨s1, p1⟩ := h1
  obtain ⟨s2, p2⟩ := h2
  have s1 : (b.width, b.height) = sizeAfter m (a.width, a.height) := s1
  refine ⟨by rw [s2, s1]; rfl, fun r k hr hk => ?_⟩
  obtain ⟨r1, k1, hr1, hk1, e1, q1⟩ := p1 r k hr hk
  obtain ⟨r2, k2, hr2, hk2, e2, q2⟩ := p2 r1 k1 hr1 hk1
  refine ⟨r2, k2, hr2, hk2, ?_, q2.trans q1⟩
  rw [e2, e1, s1]
  rfl

section info
variable [Field K]

/-- Whether an info and a later one belong to an image before and after. -/
def InfoMoved (ms : List Motion) (i j : CameraInfo K) : Prop :=
  (j.width, j.height) = sizeAfterAll ms (i.width, i.height) ∧
  (Pinhole i.k → Pinhole j.k ∧ ∀ X : K × K × K, X.2.2 ≠ 0 →
    project j.k (sceneAfterAll ms X) = planeAfterAll ms (i.width, i.height) (project i.k X))

theorem applyInfo_moved (m : Motion) (i : CameraInfo K) :
    ∃ j, applyInfo (operationOf m) i = .ok j ∧ InfoMoved [m] i j := by
  cases m <;> refine ⟨_, rfl, rfl, ?_⟩ <;> rintro ⟨h1, h3, h6, h7, h8⟩ <;> refine ⟨⟨h1, h3, h6, h7, h8⟩, ?_⟩ <;> rintro ⟨X, Y, Z⟩ hZ
  all_goals
    have hZ : Z ≠ 0 := hZ
    simp only [operationOf, newFlip, applyInfo, rotateInfo, flipInfo, project, sceneAfterAll, sceneAfter, planeAfterAll, planeAfter, Prod.mk.injEq]
    simp [setCentre, setFocal, h1, h3, h6, h7, h8]
    try constructor
  all_goals
    field_simp
    try ring

theorem InfoMoved.cons {m : Motion} {ms : List Motion} {a b c : CameraInfo K} (h1 : InfoMoved [m] a b) (h2 : InfoMoved ms b c) :
    InfoMoved (m :: ms) a c := by
  obtain ⟨s1, p1⟩ := h1
  obtain ⟨s2, p2⟩ := h2
  have s1 : (b.width, b.height) = sizeAfter m (a.width, a.height) := s1
  refine ⟨by rw [s2, s1]; rfl, fun hp => ?_⟩
  obtain ⟨hb, e1⟩ := p1 hp
  obtain ⟨hc, e2⟩ := p2 hb
  refine ⟨hc, fun X hX => ?_⟩
  have h0 : (sceneAfter m X).2.2 ≠ 0 := by cases m <;> exact hX
  show project c.k (sceneAfterAll ms (sceneAfter m X)) = planeAfterAll ms (sizeAfter m _) (planeAfter m _ _)
  rw [e2 _ h0, ← s1]
  congr 1
  exact e1 X hX

/-- C68. For every sequence of operations, every image and every camera info: the image that results shows at each place what the
image showed at the place that moved there; the info that results has the size of the image, and with its camera matrix each point of
the moved scene appears where the point of the scene appeared before, moved with the image. -/
theorem C68_sequences (ms : List Motion) (a : Image α) (i : CameraInfo K) :
    ∃ b j, applyAll (ms.map operationOf) (a, i) = .ok (b, j) ∧
      Moved ms a b ∧
      ((j.width, j.height) = sizeAfterAll ms (i.width, i.height)) ∧
      (Pinhole i.k → Pinhole j.k ∧ ∀ X : K × K × K, X.2.2 ≠ 0 →
        project j.k (sceneAfterAll ms X) = planeAfterAll ms (i.width, i.height) (project i.k X)) ∧
      j.header = i.header ∧ j.distortionModel = i.distortionModel ∧ j.d = i.d := by
  have main : ∃ b j, applyAll (ms.map operationOf) (a, i) = .ok (b, j) ∧ Moved ms a b ∧ InfoMoved ms i j ∧
      j.header = i.header ∧ j.distortionModel = i.distortionModel ∧ j.d = i.d := by
    induction ms generalizing a i with
    | nil => exact ⟨a, i, rfl, ⟨rfl, fun r c hr hc => ⟨r, c, hr, hc, rfl, rfl⟩⟩, ⟨rfl, fun h => ⟨h, fun _ _ => rfl⟩⟩, rfl, rfl, rfl⟩
    | cons m ms ih =>
      obtain ⟨b, hb, hb'⟩ := applyImage_moved m a
      obtain ⟨j, hj, hj'⟩ := applyInfo_moved m i
      obtain ⟨c, k, h, hc, hk, e1, e2, e3⟩ := ih b j
      have hf : j.header = i.header ∧ j.distortionModel = i.distortionModel ∧ j.d = i.d := by
        cases m <;> (obtain rfl := Outcome.ok.inj hj.symm) <;> exact ⟨rfl, rfl, rfl⟩
      refine ⟨c, k, ?_, hb'.cons hc, hj'.cons hk, e1.trans hf.1, e2.trans hf.2.1, e3.trans hf.2.2⟩
      show (applyImage _ _ >>= fun a => applyInfo _ _ >>= fun i => applyAll _ (a, i)) = _
      rw [hb, Outcome.bind_ok, hj, Outcome.bind_ok, h]
  obtain ⟨b, j, h, hb, hj, hf⟩ := main
  exact ⟨b, j, h, hb, hj.1, hj.2, hf⟩

end info

/-- A camera matrix with the focal lengths 2 and 3 and the centre (2, 1) for an image of 5 by 4. -/
def sampleInfo : CameraInfo ℚ where
  header := ⟨7, 12, "cam"⟩
  height := 4
  width := 5
  distortionModel := "plumb_bob"
  d := [0, 0, 0, 0, 0]
  k := ![2, 0, 2, 0, 3, 1, 0, 0, 1]
  r := fun _ => 0
  p := ![2, 0, 2, 0, 0, 3, 1, 0, 0, 0, 1, 0]

/-- An image of 5 by 4, each pixel different. -/
def sampleImage : Image Nat := ⟨5, 4, fun r c => 10 * r + c⟩

/-- The matrix of the sample is one without skew; a point on its axis and one off it are projected to different places; and a quarter
turn moves the second. -/
example : Pinhole sampleInfo.k ∧ project sampleInfo.k (0, 0, 1) = (2, 1) ∧ project sampleInfo.k (1, 1, 2) = (3, 5 / 2) ∧
    planeAfter .cw (5, 4) (3, (5 / 2 : ℚ)) = (3 / 2, 3) ∧ sizeAfterAll [.cw, .mirrorX] (5, 4) = (4, 5) := by
  refine ⟨⟨rfl, rfl, rfl, rfl, rfl⟩, ?_, ?_, ?_, rfl⟩ <;> decide +kernel

/-! ### Laws -/

/-- The same image: size and every pixel. -/
def SameImage (a b : Image α) : Prop := a.width = b.width ∧ a.height = b.height ∧ ∀ r c, r < a.height → c < a.width → a.px r c = b.px r c

/-- Two sequences of operations have the same effect on every image and every info. -/
def SameEffect (K α : Type) [Field K] (ms ns : List Motion) : Prop :=
  ∀ (a : Image α) (i : CameraInfo K), ∃ b j b' j', applyAll (ms.map operationOf) (a, i) = .ok (b, j) ∧
    applyAll (ns.map operationOf) (a, i) = .ok (b', j') ∧ SameImage b b' ∧ j = j'

theorem infoExt {i j : CameraInfo K} (h1 : i.header = j.header) (h2 : i.height = j.height) (h3 : i.width = j.width)
    (h4 : i.distortionModel = j.distortionModel) (h5 : i.d = j.d) (h6 : i.k = j.k) (h7 : i.r = j.r) (h8 : i.p = j.p) : i = j := by
  cases i; cases j; simp_all

/-- Proves that two sequences have the same effect. -/
macro "same_effect" : tactic => `(tactic| (
  intro a i
  refine ⟨_, _, _, _, rfl, rfl, ⟨rfl, rfl, ?_⟩, infoExt rfl rfl rfl rfl rfl ?_ rfl rfl⟩
  · intro r c hr hc
    simp only [cvRotate, cvFlip, newFlip, operationOf, applyImage] at *
    all_goals norm_num at *
    all_goals (congr 1 <;> omega)
  · funext q
    fin_cases q <;> simp [operationOf, newFlip, applyInfo, rotateInfo, flipInfo, setCentre, setFocal]))

/-- C68. Four quarter turns, a quarter turn and its opposite, and a flip applied twice are the identity, on images and infos. -/
theorem C68_identities [Field K] :
    SameEffect K α [.cw, .cw, .cw, .cw] [] ∧ SameEffect K α [.ccw, .ccw, .ccw, .ccw] [] ∧
    SameEffect K α [.cw, .ccw] [] ∧ SameEffect K α [.ccw, .cw] [] ∧ SameEffect K α [.half, .half] [] ∧
    SameEffect K α [.mirrorX, .mirrorX] [] ∧ SameEffect K α [.mirrorY, .mirrorY] [] ∧ SameEffect K α [.mirrorXY, .mirrorXY] [] := by
  refine ⟨?_, ?_, ?_, ?_, ?_, ?_, ?_, ?_⟩ <;> same_effect

/-- C68. The other relations between the operations: two quarter turns are half a turn, three are the opposite quarter turn; a flip of
both axes is half a turn and is the two flips one after the other, in any order; a flip turns a quarter turn round. -/
theorem C68_relations [Field K] :
    SameEffect K α [.cw, .cw] [.half] ∧ SameEffect K α [.ccw, .ccw] [.half] ∧ SameEffect K α [.cw, .cw, .cw] [.ccw] ∧
    SameEffect K α [.mirrorXY] [.half] ∧ SameEffect K α [.mirrorX, .mirrorY] [.mirrorXY] ∧
    SameEffect K α [.mirrorY, .mirrorX] [.mirrorXY] ∧ SameEffect K α [.mirrorX, .cw] [.ccw, .mirrorX] ∧
    SameEffect K α [.cw, .mirrorX] [.mirrorY, .cw] := by
  refine ⟨?_, ?_, ?_, ?_, ?_, ?_, ?_, ?_⟩ <;> same_effect

/-- The sample really changes under a quarter turn. -/
example : ∃ b j, applyAll ([Motion.cw].map operationOf) (sampleImage, sampleInfo) = .ok (b, j) ∧ b.width = 4 ∧ b.height = 5 ∧
    b.px 0 0 = 30 ∧ b.px 4 3 = 4 ∧ j.k 0 = 3 ∧ j.k 2 = 3 ∧ j.k 5 = 2 := by
  refine ⟨_, _, rfl, rfl, rfl, rfl, rfl, rfl, ?_, rfl⟩
  decide +kernel

/-! ### Angles -/

/-- C68 (partial). An angle that is not positive, or is a multiple of 360 degrees, is rejected. A positive multiple of 90 degrees that is
not one of 360 degrees makes the operation for so many quarter turns clockwise. Missing: angles that are not multiples of 90 degrees
are not rejected (`C68_fails_angles`). -/
theorem C68_angles_partial :
    (∀ d : Int, newRotate d = .throws ↔ d ≤ 0 ∨ 360 ∣ d) ∧
    (∀ q : Int, 0 < q → q % 4 = 1 → newRotate (90 * q) = .ok (operationOf .cw)) ∧
    (∀ q : Int, 0 < q → q % 4 = 2 → newRotate (90 * q) = .ok (operationOf .half)) ∧
    (∀ q : Int, 0 < q → q % 4 = 3 → newRotate (90 * q) = .ok (operationOf .ccw)) := by
  have pos : ∀ d : Int, 0 < d → d.tmod 360 = d % 360 := fun d hd => Int.tmod_eq_emod_of_nonneg hd.le
  refine ⟨fun d => ?_, fun q h0 h => ?_, fun q h0 h => ?_, fun q h0 h => ?_⟩
  · simp only [newRotate]
    by_cases hd : 0 < d
    · rw [pos d hd]
      by_cases h : d % 360 ≤ 0
      · rw [if_pos h]
        exact ⟨fun _ => Or.inr (by omega), fun _ => rfl⟩
      · rw [if_neg h]
        constructor
        · intro hc
          split_ifs at hc
        · rintro (h' | h') <;> omega
    · have : d.tmod 360 ≤ 0 := by
        have h1 : (-d).tmod 360 = (-d) % 360 := Int.tmod_eq_emod_of_nonneg (by omega)
        rw [Int.neg_tmod] at h1
        omega
      rw [if_pos this]
      exact ⟨fun _ => Or.inl (by omega), fun _ => rfl⟩
  all_goals
    simp only [newRotate, pos (90 * q) (by omega)]
  · rw [show 90 * q % 360 = 90 by omega]; rfl
  · rw [show 90 * q % 360 = 180 by omega]; rfl
  · rw [show 90 * q % 360 = 270 by omega]; rfl

/-- C68, false: an angle that is not a multiple of 90 degrees is accepted, and the operation reads a member that was never assigned. -/
theorem C68_fails_angles [Field K] (d : Int) (hd : 0 < d) (h : ¬ 90 ∣ d) :
    ∃ o, newRotate d = .ok o ∧ (∀ a : Image α, applyImage o a = .ub) ∧ ∀ i : CameraInfo K, applyInfo o i = .ub := by
  refine ⟨.rotate none, ?_, fun _ => rfl, fun _ => rfl⟩
  simp only [newRotate, Int.tmod_eq_emod_of_nonneg hd.le]
  rw [if_neg (by omega), if_neg (by omega), if_neg (by omega), if_neg (by omega)]

example : (0 : Int) < 45 ∧ ¬ (90 : Int) ∣ 45 := by decide

/-! ### Where the infos are wrong -/

/-- C68, false for the projection matrix: it is left as it was. Before a quarter turn both matrices of the sample project each point to
the same place; afterwards the projection matrix does not project the moved scene to the moved place. -/
theorem C68_fails_projection_matrix :
    (∀ X, projectP sampleInfo.p X = project sampleInfo.k X) ∧
    ∃ b j, applyAll ([Motion.cw].map operationOf) (sampleImage, sampleInfo) = .ok (b, j) ∧
      projectP j.p (sceneAfter .cw (1, 1, 2)) ≠ planeAfter .cw (5, 4) (projectP sampleInfo.p (1, 1, 2)) := by
  refine ⟨fun X => ?_, _, _, rfl, ?_⟩
  · simp [projectP, project, sampleInfo]
  · decide +kernel

/-- C68, false if pixels are counted from their centres, as in ROS, where the pixel in row `r` and column `c` is at `(c, r)`: a point
that is projected onto a pixel is, after a flip, not projected onto the pixel that shows what that pixel showed, but one farther. -/
theorem C68_fails_pixel_indices :
    ∃ b j, applyAll ([Motion.mirrorX].map operationOf) (sampleImage, sampleInfo) = .ok (b, j) ∧
      project sampleInfo.k (0, 0, 1) = (((2 : Nat) : ℚ), ((1 : Nat) : ℚ)) ∧
      b.px 1 2 = sampleImage.px 1 2 ∧ (∀ r c, r < b.height → c < b.width → b.px r c = sampleImage.px 1 2 → r = 1 ∧ c = 2) ∧
      project j.k (sceneAfter .mirrorX (0, 0, 1)) = (((3 : Nat) : ℚ), ((1 : Nat) : ℚ)) := by
  refine ⟨_, _, rfl, ?_, rfl, ?_, ?_⟩
  · decide +kernel
  · intro r c hr hc h
    have hr : r < 4 := hr
    have hc : c < 5 := hc
    have h : 10 * r + (5 - 1 - c) = 10 * 1 + 2 := h
    omega
  · decide +kernel

end Camera

end Serpent
