import Verif.Props.PclDeskew
import Verif.Lemmas.Arrays

/-!
# `resize` (C58) and `check_normals` (C100)
-/

namespace Serpent

namespace Pcl

open EigenRos (forLoop forLoop_inv)

/-- C58. `resize` to `width` × `height` points, if their number and the number of bytes are `std::uint32_t`: the cloud is well
formed, has that size, keeps its description and its first bytes; bytes that are added are 0. -/
theorem C58_resize (c : Cloud) {width height : Nat} (hpoints : height * width < 2 ^ 32)
    (hbytes : height * (width * c.pointStep) < 2 ^ 32) (hrow : width * c.pointStep < 2 ^ 32) :
    WellFormed (resize c width height) ∧ (resize c width height).width = width ∧ (resize c width height).height = height ∧
    { resize c width height with width := c.width, height := c.height, rowStep := c.rowStep, data := c.data } = c ∧
    ∀ k, k < height * (width * c.pointStep) → (resize c width height).data[k]? = some (c.data[k]?.getD 0) := by
  have hr : rowStep { c with height := height, width := width } = width * c.pointStep := by
    unfold rowStep
    rw [u32_of_lt (by rw [Nat.mul_comm]; exact hrow), Nat.mul_comm]
  have hd : (resize c width height).data = EigenRos.resize c.data (height * (width * c.pointStep)) 0 := by
    unfold resize
    dsimp only
    rw [hr]
    unfold sizeBytes
    rw [u32_of_lt hbytes]
  have hrs : (resize c width height).rowStep = width * c.pointStep := hr
  refine ⟨⟨hrs, ?_, ?_, hpoints⟩, rfl, rfl, rfl, ?_⟩
  · rw [hd, EigenRos.resize_length, hrs]; rfl
  · rw [hd, EigenRos.resize_length]; exact hbytes
  · intro k hk
    rw [hd]
    unfold EigenRos.resize
    by_cases h : k < c.data.length
    · rw [List.getElem?_append_left (by rw [List.length_take]; omega), List.getElem?_take_of_lt hk, List.getElem?_eq_getElem h]
      rfl
    · rw [List.getElem?_append_right (by rw [List.length_take]; omega), List.getElem?_replicate, if_pos (by
        rw [List.length_take]; omega), List.getElem?_eq_none (by omega)]
      rfl

/-- The hypotheses of `C58_resize` are met, and both kinds of bytes occur. -/
example : (resize ⟨⟨0, 0, ""⟩, 1, 1, [⟨"a", 0, 4, 1⟩], false, 2, 2, [7, 8], true⟩ 2 3).data = [7, 8, 0, 0, 0, 0, 0, 0, 0, 0, 0, 0] ∧
    (resize ⟨⟨0, 0, ""⟩, 1, 1, [⟨"a", 0, 4, 1⟩], false, 2, 2, [7, 8], true⟩ 2 3).height = 3 := by
  decide +kernel

open Classical in
/-- C100. `check_normals` on a well formed cloud whose normals are `float`: the number of points whose normal has a length that
differs from 1 by more than the threshold. -/
theorem C100_check_normals (cd : Codec ℝ) {c : Cloud} {x y z : PField} (threshold : ℝ) (hw : WellFormed c)
    (hx : getField c "normal_x" = .ok x) (hy : getField c "normal_y" = .ok y) (hz : getField c "normal_z" = .ok z)
    (tx : HasType c x .float32) (ty : HasType c y .float32) (tz : HasType c z .float32) :
    checkNormals cd c threshold = .ok ((List.range (count c)).countP fun i =>
      decide (threshold < |Real.sqrt ((value cd .float32 c x i) ^ 2 + (value cd .float32 c y i) ^ 2 +
        (value cd .float32 c z i) ^ 2) - 1|)) := by
  unfold checkNormals
  rw [hx, hy, hz]
  simp only [Outcome.bind_ok]
  rw [getter_ok _ tx.1, Outcome.bind_ok, getter_ok _ ty.1, Outcome.bind_ok, getter_ok _ tz.1, Outcome.bind_ok, hw.sizePoints]
  obtain ⟨n, h, hn⟩ := forLoop_inv (fun k (n : Nat) => n = (List.range k).countP fun i =>
      decide (threshold < |Real.sqrt ((value cd .float32 c x i) ^ 2 + (value cd .float32 c y i) ^ 2 +
        (value cd .float32 c z i) ^ 2) - 1|)) (n := count c)
    (body := fun i n =>
      readAs cd .float32 .float32 x.offset c i >>= fun x =>
      readAs cd .float32 .float32 y.offset c i >>= fun y =>
      readAs cd .float32 .float32 z.offset c i >>= fun z =>
      .ok (if |Real.sqrt (x ^ 2 + y ^ 2 + z ^ 2) - 1| > threshold then n + 1 else n)) (s := 0) rfl (by
      intro i n hi hn
      refine ⟨_, by
        rw [readAs_eq _ hw tx hi, readAs_eq _ hw ty hi, readAs_eq _ hw tz hi]
        simp only [castTo, if_true, Outcome.bind_ok]
        rfl, ?_⟩
      rw [List.range_succ, List.countP_append, ← hn, List.countP_cons, List.countP_nil]
      simp only [gt_iff_lt, decide_eq_true_eq]
      split <;> rfl)
  rw [h, hn]

/-- C100. If one of the three fields is missing, `check_normals` throws. -/
theorem C100_missing (cd : Codec ℝ) {c : Cloud} (threshold : ℝ)
    (h : ∃ n ∈ ["normal_x", "normal_y", "normal_z"], ∀ f ∈ c.fields, f.name ≠ n) : checkNormals cd c threshold = .throws := by
  have hg : ∀ (f : PField), getter cd .float32 f ≠ .ub := by
    intro f
    unfold getter
    split <;> simp
  have hn := fun n => (C58_get_field c n).2.2.1
  obtain ⟨n, hmem, hmiss⟩ := h
  have ht := (C58_get_field c n).2.1.2 hmiss
  unfold checkNormals
  have step : ∀ {α : Type} (m : String) (k : PField → (Cloud → Nat → Outcome ℝ) → Outcome α),
      (n = m ∨ ∀ f g, k f g = .throws) → (getField c m >>= fun f => getter cd .float32 f >>= fun g => k f g) = .throws := by
    intro α m k hk
    rcases hk with rfl | hk
    · rw [ht]; rfl
    · cases e : getField c m with
      | throws => rfl
      | ub => exact absurd e (hn m)
      | ok f =>
        rw [Outcome.bind_ok]
        cases e' : getter cd .float32 f with
        | throws => rfl
        | ub => exact absurd e' (hg f)
        | ok g => rw [Outcome.bind_ok, hk]
  apply step "normal_x" (fun _ _ => _)
  by_cases h1 : n = "normal_x"
  · exact .inl h1
  right
  intro _ _
  apply step "normal_y" (fun _ _ => _)
  by_cases h2 : n = "normal_y"
  · exact .inl h2
  right
  intro _ _
  apply step "normal_z" (fun _ _ => _)
  left
  simpa [h1, h2] using hmem

/-- A cloud of two points with normals of length 1 and 2. -/
def twoNormals : Cloud :=
  ⟨⟨0, 0, ""⟩, 1, 2, [⟨"normal_x", 0, 7, 1⟩, ⟨"normal_y", 4, 7, 1⟩, ⟨"normal_z", 8, 7, 1⟩], false, 12, 24,
    [0, 0, 128, 63, 0, 0, 0, 0, 0, 0, 0, 0, 0, 0, 0, 0, 0, 0, 0, 64, 0, 0, 0, 0], true⟩

/-- The hypotheses of `C100_check_normals` are met; of the two normals one is counted. -/
example : checkNormals Ieee.realCodec twoNormals (1 / 2) = .ok 1 := by
  classical
  rw [C100_check_normals Ieee.realCodec (x := ⟨"normal_x", 0, 7, 1⟩) (y := ⟨"normal_y", 4, 7, 1⟩) (z := ⟨"normal_z", 8, 7, 1⟩)
    (1 / 2) ⟨rfl, rfl, by decide, by decide⟩ (by decide +kernel) (by decide +kernel) (by decide +kernel)
    ⟨rfl, by decide⟩ ⟨rfl, by decide⟩ ⟨rfl, by decide⟩]
  have e0 : Ieee.dec .float32 [0, 0, 0, 0] = 0 := by decide +kernel
  have e1 : Ieee.dec .float32 [0, 0, 128, 63] = 1 := by decide +kernel
  have e2 : Ieee.dec .float32 [0, 0, 0, 64] = 2 := by decide +kernel
  have v (f : PField) (i : Nat) : value Ieee.realCodec .float32 twoNormals f i =
    ((Ieee.dec .float32 (bytesAt twoNormals i f.offset 4) : ℚ) : ℝ) := rfl
  have b0 : bytesAt twoNormals 0 0 4 = [0, 0, 128, 63] := by decide +kernel
  have b1 : bytesAt twoNormals 0 4 4 = [0, 0, 0, 0] := by decide +kernel
  have b2 : bytesAt twoNormals 0 8 4 = [0, 0, 0, 0] := by decide +kernel
  have b3 : bytesAt twoNormals 1 0 4 = [0, 0, 0, 0] := by decide +kernel
  have b4 : bytesAt twoNormals 1 4 4 = [0, 0, 0, 64] := by decide +kernel
  have b5 : bytesAt twoNormals 1 8 4 = [0, 0, 0, 0] := by decide +kernel
  rw [show count twoNormals = 2 from rfl, show List.range 2 = [0, 1] from rfl]
  simp only [v, b0, b1, b2, b3, b4, b5, e0, e1, e2, List.countP_cons, List.countP_nil]
  have s : Real.sqrt (4 : ℝ) = 2 := by rw [show (4 : ℝ) = 2 ^ 2 by norm_num, Real.sqrt_sq (by norm_num)]
  norm_num [s]

end Pcl

end Serpent
