import Verif.Model.PclCloud
import Verif.Spec.PclCodec
import Verif.Model.RegistrationCovariance

/-!
# The unit tests of pointcloud_tools and of the registration covariance, replayed on the model

pointcloud_tools/test/pclpointcloud2_utilities.cpp ("utilities.cpp") and serpent/test/registration_covariance.cpp. Nothing here is
a claim about all inputs. The tests of unit vectors, deskewing, `check_normals`, transformed clouds and of the nonlinear models
involve roots, sines and cosines and are instances of theorems (DESIGN.md, "The repository's unit tests").
-/

namespace Serpent

namespace Conformance

namespace Cloud

open Pcl

/-- The bits of a binary32 number: the exponent is found by logarithms, the fraction is rounded down to 23 bits after adding a half. -/
def floatBits (v : ℚ) : Nat :=
  if v = 0 then 0 else
    let a := |v|
    let e : ℤ := (Nat.log2 a.num.toNat : ℤ) - (Nat.log2 a.den : ℤ)
    let e : ℤ := if (2 : ℚ) ^ e ≤ a then e else e - 1
    let m := ⌊(a / 2 ^ e - 1) * 2 ^ 23 + 1 / 2⌋.toNat
    (if v < 0 then 2 ^ 31 else 0) + (e + 127).toNat * 2 ^ 23 + m

/-- Bytes of a value of the two types that the tests use. -/
def enc (t : FT) (v : ℚ) : List UInt8 :=
  match t with
  | .float32 => Ieee.leBytes 4 (floatBits v)
  | _ => Ieee.leBytes t.size (⌊v⌋ % 256 ^ t.size).toNat

/-- Representation of the numbers of the tests; doubles are not rounded. -/
def codec : Codec ℚ where
  dec := Ieee.dec
  enc := enc
  cast _ b v := .ok (match b with
    | .float32 => Ieee.dec .float32 (enc .float32 v)
    | .float64 => v
    | _ => Ieee.trunc v)
  add _ a b := .ok (a + b)
  lowest _ := -2 ^ 127
  highest _ := 2 ^ 127

/-- The value of a number that is stored as `float`. -/
def f32 (v : ℚ) : ℚ := Ieee.dec .float32 (enc .float32 v)

/-- 1, -0.75 and 1032 have the bits of the standard. -/
example : floatBits 1 = 0x3f800000 ∧ floatBits (-3 / 4) = 0xbf400000 ∧ floatBits 1032 = 0x44810000 ∧
    floatBits (1 / 10) = 0x3dcccccd := by decide +kernel

/-- `pcl::toPCLPointCloud2` of points `pcl::PointXYZ`: three fields in 16 bytes. -/
def xyz (points : List (ℚ × ℚ × ℚ)) : Cloud where
  header := ⟨0, 0, "0"⟩
  height := 1
  width := points.length
  fields := [⟨"x", 0, 7, 1⟩, ⟨"y", 4, 7, 1⟩, ⟨"z", 8, 7, 1⟩]
  isBigendian := false
  pointStep := 16
  rowStep := 16 * points.length
  data := points.flatMap fun p => enc .float32 p.1 ++ enc .float32 p.2.1 ++ enc .float32 p.2.2 ++ [0, 0, 128, 63]
  isDense := true

/-- Whether a result is there and passes a test. -/
def passes {α : Type} (r : Outcome α) (test : α → Bool) : Bool :=
  match r with
  | .ok a => test a
  | _ => false

/-- The values of a field, read as doubles. -/
def column (c : Cloud) (name : String) : List (Option ℚ) :=
  (List.range (sizePoints c)).map fun i =>
    match getField c name >>= fun f => fieldData codec .float64 c f i with
    | .ok v => some v
    | _ => none

/-- utilities.cpp:13-21 and 23-31 (`add_fields`, `float32_fields` and `int32_fields`). -/
example : [FT.float32, FT.int32].all fun t =>
    passes (addFields Cloud.empty ["a", "b", "c"] t 1) fun c => ["a", "b", "c"].all (hasField c) := by decide +kernel

/-- utilities.cpp:33-44 and 46-57 (`xyz_plus_float32_fields` and `xyz_plus_int32_fields`). -/
example : [FT.float32, FT.int32].all fun t =>
    passes (addFields (xyz []) ["a", "b", "c"] t 1) fun c => ["a", "b", "c", "x", "y", "z"].all (hasField c) := by decide +kernel

/-- The points of the tests of casts. -/
def points : List (ℚ × ℚ × ℚ) := [(-1, 2, 3), (-7 / 10, -22 / 10, 44 / 10), (3 / 2, 1032, 69 / 10)]

/-- Three operations one after the other. -/
def onXYZ (c : Cloud) (f : Cloud → String → Outcome Cloud) : Outcome Cloud :=
  f c "x" >>= fun c => f c "y" >>= fun c => f c "z"

/-- utilities.cpp:91-117 (`cast`, `pointxyz_float32_to_int32`). -/
example : passes (onXYZ (xyz points) (castField codec .int32)) fun c =>
    column c "x" = [some (-1), some 0, some 1] ∧ column c "y" = [some 2, some (-2), some 1032] ∧
      column c "z" = [some 3, some 4, some 6] := by decide +kernel

/-- The cloud of integers of utilities.cpp:121-141 and 197-217. -/
def ints : Outcome Cloud :=
  addFields Cloud.empty ["x", "y", "z"] .int32 1 >>= fun c =>
  let c := Pcl.resize c 3 1
  [("x", 0, (1 : ℚ)), ("y", 0, 2), ("z", 0, 3), ("x", 1, -3), ("y", 1, -2), ("z", 1, -1), ("x", 2, 10), ("y", 2, -4),
    ("z", 2, 0)].foldlM (fun c (w : String × Nat × ℚ) =>
      getField c w.1 >>= fun f => setterTyped codec .int32 .int32 f >>= fun set => set c w.2.1 w.2.2) c

/-- utilities.cpp:119-164 (`cast`, `pointxyz_int32_to_float32`). -/
example : passes (ints >>= fun c => onXYZ c (castField codec .float32)) fun c =>
    column c "x" = [some 1, some (-3), some 10] ∧ column c "y" = [some 2, some (-2), some (-4)] ∧
      column c "z" = [some 3, some (-1), some 0] := by decide +kernel

/-- utilities.cpp:166-193 (`cast_field_with_scale`, `pointxyz_float32_to_int32`), with the scale 3. -/
example : passes (onXYZ (xyz points) (castFieldWithScale codec .int32 · · 3)) fun c =>
    column c "x" = [some (-3), some (-2), some 4] ∧ column c "y" = [some 6, some (-6), some 3096] ∧
      column c "z" = [some 9, some 13, some 20] := by decide +kernel

/-- utilities.cpp:195-241 (`cast_field_with_scale`, `pointxyz_int32_to_float32`), for all the scales of the test. -/
example : (List.range 10).all fun s =>
    passes (ints >>= fun c => onXYZ c (castFieldWithScale codec .float32 · · (s : ℚ))) fun c =>
      column c "x" = [some (s : ℚ), some (-3 * s), some (10 * s)] ∧ column c "y" = [some (2 * s : ℚ), some (-2 * s), some (-4 * s)] ∧
        column c "z" = [some (3 * s : ℚ), some (-s), some 0] := by decide +kernel

/-- utilities.cpp:243-262 (`change_field_name`). -/
example : passes (changeFieldName (xyz []) "x" "new_x" >>= fun c => changeFieldName c "y" "new_y" >>= fun c =>
      changeFieldName c "z" "new_z") fun c =>
    ["new_x", "new_y", "new_z"].all (hasField c) ∧ ["x", "y", "z"].all fun n => !hasField c n := by decide +kernel

/-- utilities.cpp:432-442 (`empty`). -/
example : isEmpty (xyz []) = true ∧ isEmpty (xyz [(4, 4, 4)]) = false := by decide +kernel

/-- utilities.cpp:444-462 (`filter_max`): two, one and no points remain. -/
example :
    passes (filterMaxNamed codec (fun a b => decide (a ≤ b)) .float64 (xyz points) Cloud.empty "x" (f32 (-6 / 10)))
      (fun c => sizePoints c = 2 ∧ column c "x" = [some (-1), some (f32 (-7 / 10))]) ∧
    passes (filterMaxNamed codec (fun a b => decide (a ≤ b)) .float64 (xyz points) Cloud.empty "y" (f32 (19 / 10)))
      (fun c => sizePoints c = 1) ∧
    passes (filterMaxNamed codec (fun a b => decide (a ≤ b)) .float64 (xyz points) Cloud.empty "z" (f32 (29 / 10)))
      (fun c => sizePoints c = 0) := by decide +kernel

/-- utilities.cpp:464-524 (`get_set_field_data_functions`): what is written is read. -/
example : passes ([("x", 0, (4 : ℚ)), ("y", 0, 5), ("z", 0, 6), ("x", 1, 7), ("y", 1, 8), ("z", 1, 9)].foldlM
      (fun c (w : String × Nat × ℚ) =>
        getField c w.1 >>= fun f => setter codec .float32 f >>= fun set => set c w.2.1 w.2.2) (xyz [(2, 2, 2), (3, 3, 3)])) fun c =>
    column c "x" = [some 4, some 7] ∧ column c "y" = [some 5, some 8] ∧ column c "z" = [some 6, some 9] := by decide +kernel

/-- utilities.cpp:526-541 (`has_field`). -/
example : (["x", "y", "z"].all fun n => hasField (xyz []) n) ∧
    ["x ", "x_", " x", " x ", "_x", "xx", "t", ""].all fun n => !hasField (xyz []) n := by decide +kernel

/-- utilities.cpp:543-560 (`max`). -/
example :
    let c := xyz [(-1, 2, 3), (-7 / 10, -2, 4), (-4 / 10, -12, 5), (-43 / 10, 2, -5), (-22 / 10, -12, 5)]
    (getField c "x" >>= fun f => maxField codec .float32 c f) = .ok (f32 (-4 / 10)) ∧
    (getField c "y" >>= fun f => maxField codec .float32 c f) = .ok 2 ∧
    (getField c "z" >>= fun f => maxField codec .float32 c f) = .ok 5 := by decide +kernel

/-- utilities.cpp:562-583 (`scale_field`), for all the scales of the test and with its precision. -/
example : (List.range 10).all fun s =>
    let ps : List (ℚ × ℚ × ℚ) := [(-1, 2, 3), (-7 / 10, -22 / 10, 44 / 10), (3 / 2, 432 / 10, 69 / 10)]
    passes (onXYZ (xyz ps) (scaleFieldNamed codec · · (s : ℚ))) fun c =>
      (List.zip (column c "x") (ps.map (·.1)) ++ List.zip (column c "y") (ps.map (·.2.1)) ++
        List.zip (column c "z") (ps.map (·.2.2))).all fun vw =>
          match vw.1 with
          | some v => |v - f32 vw.2 * s| ≤ 2 / 100000
          | none => false := by decide +kernel

/-- utilities.cpp:585-598 (`size_points`) and 600-615 (`size_bytes`). -/
example : (List.range 3).all fun n => let c := xyz (List.replicate n (1, 1, 1))
    sizePoints c = n ∧ sizeBytes c = n * 16 ∧ c.pointStep = 16 := by decide +kernel

end Cloud

namespace Covariance

open Lidar EigenExt

/-- The rotation vector of registration_covariance.cpp:47-50 (the same in all its tests). -/
def r : Fin 3 → ℚ := ![1 / 2, 9 / 10, 17 / 10]
/-- The translation. -/
def t : Fin 3 → ℚ := ![-9 / 2, 14, 89 / 10]
/-- The source point. -/
def p : Fin 3 → ℚ := ![1, 2, 3]
/-- The target point. -/
def q : Fin 3 → ℚ := ![11 / 2, 88 / 10, -4]
/-- The normal, registration_covariance.cpp:108. -/
def n : Fin 3 → ℚ := ![455842305838552 / 10 ^ 15, 683763458757828 / 10 ^ 15, 569802882298190 / 10 ^ 15]

/-- All entries of twice a matrix, row by row. -/
def entries (m : Mat6 ℚ) : List ℚ :=
  let i : List (Fin 3 ⊕ Fin 3) := [.inl 0, .inl 1, .inl 2, .inr 0, .inr 1, .inr 2]
  i.flatMap fun a => i.map fun b => 2 * m a b

/-- `manual_6x6_matrix_check`, registration_covariance.cpp:7-44. -/
def near (l l' : List ℚ) : Bool := l.length = 36 ∧ l'.length = 36 ∧ (List.zip l l').all fun v => |v.1 - v.2| ≤ 1 / 10 ^ 12

/-- registration_covariance.cpp:77-100 (`point_to_point_linear`). -/
example :
    near (entries (pointLinDx2 p)) [
      26, -4, -6, 0, -6, 4, -4, 20, -12, 6, 0, -2, -6, -12, 10, -4, 2, 0, 0, 6, -4, 2, 0, 0, -6, 0, 2, 0, 2, 0, 4, -2, 0, 0, 0,
      2] ∧
    near (entries (pointLinDzdx r t p q)) [
      -13800000000000001 / 10 ^ 15, 28, -78 / 10 ^ 1, 0, 6, -4, -242 / 10 ^ 1, -112 / 10 ^ 1, -16, -6, 0, 2, 142 / 10 ^ 1,
      282 / 10 ^ 1, -46 / 10 ^ 1, 4, -2, 0, 2, -34 / 10 ^ 1, 18 / 10 ^ 1, -2, 0, 0, 34 / 10 ^ 1, 2, -1, 0, -2, 0, -18 / 10 ^ 1,
      1, 2, 0, 0, -2] := by decide +kernel

/-- registration_covariance.cpp:138-170 (`point_to_plane_linear`). -/
example :
    near (entries (planeLinDx2 p n)) [
      1662337662337662 / 10 ^ 15, -1454545454545455 / 10 ^ 15, 415584415584416 / 10 ^ 15, -831168831168831 / 10 ^ 15,
      -1246753246753247 / 10 ^ 15, -1038961038961039 / 10 ^ 15, -1454545454545455 / 10 ^ 15, 1272727272727273 / 10 ^ 15,
      -363636363636364 / 10 ^ 15, 727272727272727 / 10 ^ 15, 1090909090909091 / 10 ^ 15, 909090909090909 / 10 ^ 15,
      415584415584416 / 10 ^ 15, -363636363636364 / 10 ^ 15, 103896103896104 / 10 ^ 15, -207792207792208 / 10 ^ 15,
      -311688311688312 / 10 ^ 15, -25974025974026 / 10 ^ 14, -831168831168831 / 10 ^ 15, 727272727272727 / 10 ^ 15,
      -207792207792208 / 10 ^ 15, 415584415584416 / 10 ^ 15, 623376623376623 / 10 ^ 15, 519480519480519 / 10 ^ 15,
      -1246753246753247 / 10 ^ 15, 1090909090909091 / 10 ^ 15, -311688311688312 / 10 ^ 15, 623376623376623 / 10 ^ 15,
      935064935064935 / 10 ^ 15, 779220779220779 / 10 ^ 15, -1038961038961039 / 10 ^ 15, 909090909090909 / 10 ^ 15,
      -25974025974026 / 10 ^ 14, 519480519480519 / 10 ^ 15, 779220779220779 / 10 ^ 15, 649350649350649 / 10 ^ 15] ∧
    near (entries (planeLinDzdx r t p q n)) [
      -2015584415584415 / 10 ^ 15, 10763636363636364 / 10 ^ 15, -14503896103896103 / 10 ^ 15, 831168831168831 / 10 ^ 15,
      1246753246753247 / 10 ^ 15, 1038961038961039 / 10 ^ 15, -9353246753246752 / 10 ^ 15, 309090909090909 / 10 ^ 15,
      9911688311688312 / 10 ^ 15, -727272727272727 / 10 ^ 15, -1090909090909091 / 10 ^ 15, -909090909090909 / 10 ^ 15,
      12836363636363636 / 10 ^ 15, -8981818181818182 / 10 ^ 15, -290909090909091 / 10 ^ 15, 207792207792208 / 10 ^ 15,
      311688311688312 / 10 ^ 15, 25974025974026 / 10 ^ 14, 1007792207792208 / 10 ^ 15, 176623376623377 / 10 ^ 15,
      581818181818182 / 10 ^ 15, -415584415584416 / 10 ^ 15, -623376623376623 / 10 ^ 15, -519480519480519 / 10 ^ 15,
      1511688311688312 / 10 ^ 15, 264935064935065 / 10 ^ 15, 872727272727273 / 10 ^ 15, -623376623376623 / 10 ^ 15,
      -935064935064935 / 10 ^ 15, -779220779220779 / 10 ^ 15, 125974025974026 / 10 ^ 14, 220779220779221 / 10 ^ 15,
      727272727272727 / 10 ^ 15, -519480519480519 / 10 ^ 15, -779220779220779 / 10 ^ 15, -649350649350649 / 10 ^ 15] := by decide +kernel

end Covariance

end Conformance

end Serpent
