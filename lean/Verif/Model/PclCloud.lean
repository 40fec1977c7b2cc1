import Verif.Model.Arrays
import Verif.Model.Quaternion

/-!
# Model of `pointcloud_tools/pclpointcloud2_utilities` (fields, values and bytes of a `pcl::PCLPointCloud2`)

Paths: "utilities.hpp" is pointcloud_tools/include/pointcloud_tools/impl/pclpointcloud2_utilities.hpp and "utilities.cpp" is
pointcloud_tools/src/pclpointcloud2_utilities.cpp.

Simplifications (apply to the whole file):
* `std::uint32_t` arithmetic wraps around (`u32`); the index `i * point_step + offset` (`std::size_t`) does not.
* A value of any arithmetic type is an element of `K`; how values are represented by bytes and converted between types is a
  parameter, `Codec K`. The template arguments `OutT`, `InT` and `T` range over the eight types of fields.
* Reading or writing bytes outside of `data` is undefined behaviour.
-/

namespace Serpent

namespace Pcl

open EigenRos (forLoop)

/-- `pcl::PCLPointField::PointFieldTypes` (PCL). Used in utilities.hpp:21-32. -/
inductive FT where
  | int8 | uint8 | int16 | uint16 | int32 | uint32 | float32 | float64
deriving DecidableEq, Repr

/-- The values of the enumeration (PCL). Used in utilities.hpp:21-32. -/
def FT.code : FT → Nat
  | .int8 => 1 | .uint8 => 2 | .int16 => 3 | .uint16 => 4 | .int32 => 5 | .uint32 => 6 | .float32 => 7 | .float64 => 8

/-- The cases of `switch (field.datatype)`, utilities.hpp:131-164; `none`: the default case. -/
def FT.ofCode : Nat → Option FT
  | 1 => some .int8 | 2 => some .uint8 | 3 => some .int16 | 4 => some .uint16 | 5 => some .int32 | 6 => some .uint32
  | 7 => some .float32 | 8 => some .float64 | _ => none

/-- `sizeof(T)`. Used in utilities.hpp:21-32. -/
def FT.size : FT → Nat
  | .int8 => 1 | .uint8 => 1 | .int16 => 2 | .uint16 => 2 | .int32 => 4 | .uint32 => 4 | .float32 => 4 | .float64 => 8

/-- `pcl::getFieldSize` (PCL): 0 for types that are not known. Called in utilities.cpp:41-58. -/
def getFieldSize (datatype : Nat) : Nat :=
  match FT.ofCode datatype with
  | some t => t.size
  | none => 0

/-- `pcl::PCLPointField` (PCL). Used all over utilities.cpp. -/
structure PField where
  name : String
  offset : Nat
  datatype : Nat
  count : Nat
deriving DecidableEq, Repr

/-- `pcl::PCLHeader` (PCL); the stamp is in microseconds. Used in utilities.cpp:429-436. -/
structure Header where
  seq : Nat
  stamp : Nat
  frame : String
deriving DecidableEq, Repr

/-- `pcl::PCLPointCloud2` (PCL). Used all over utilities.cpp. -/
structure Cloud where
  header : Header
  height : Nat
  width : Nat
  fields : List PField
  isBigendian : Bool
  pointStep : Nat
  rowStep : Nat
  data : List UInt8
  isDense : Bool
deriving DecidableEq, Repr

/-- A default constructed `pcl::PCLPointCloud2`. Used by the functions of utilities.cpp. -/
def Cloud.empty : Cloud := ⟨⟨0, 0, ""⟩, 0, 0, [], false, 0, 0, [], false⟩

/-- Conversion to `std::uint32_t`. In utilities.cpp:41-58. -/
def u32 (n : Nat) : Nat := n % 2 ^ 32

/-- `size_points`, utilities.cpp:414-416. -/
def sizePoints (c : Cloud) : Nat := u32 (c.height * c.width)

/-- `size_bytes`, utilities.cpp:410-412. -/
def sizeBytes (c : Cloud) : Nat := u32 (c.height * c.rowStep)

/-- `row_step`, utilities.cpp:392-394. -/
def rowStep (c : Cloud) : Nat := u32 (c.pointStep * c.width)

/-- `point_step`, utilities.cpp:381-383. -/
def pointStep (last : PField) : Nat := u32 (last.offset + getFieldSize last.datatype * last.count)

/-- `empty`, utilities.cpp:184-186. -/
def isEmpty (c : Cloud) : Bool := sizePoints c = 0

/-- `resize`, utilities.cpp:385-390. -/
def resize (c : Cloud) (width height : Nat) : Cloud :=
  let c := { c with height := height, width := width }
  let c := { c with rowStep := rowStep c }
  { c with data := EigenRos.resize c.data (sizeBytes c) 0 }

/-- `get_field`, utilities.cpp:199-206 and 208-215. -/
def getField (c : Cloud) (name : String) : Outcome PField :=
  match c.fields.find? (fun f => f.name = name) with
  | some f => .ok f
  | none => .throws

/-- `has_field`, utilities.cpp:217-224. -/
def hasField (c : Cloud) (name : String) : Bool := c.fields.any (fun f => f.name = name)

/-- Assignment through the reference returned by `get_field`: the first field with the name is changed. In
utilities.hpp:128-171. -/
def updateFirst (name : String) (g : PField → PField) : List PField → List PField
  | [] => []
  | f :: fs => if f.name = name then g f :: fs else f :: updateFirst name g fs

/-- `change_field_name`, utilities.cpp:180-182. -/
def changeFieldName (c : Cloud) (source target : String) : Outcome Cloud :=
  getField c source >>= fun _ => .ok { c with fields := updateFirst source (fun f => { f with name := target }) c.fields }

/-! ### Bytes and values -/

/-- `memcpy` from `&data[k]`. In utilities.hpp:21-32. -/
def readBytes (data : List UInt8) (k n : Nat) : Outcome (List UInt8) :=
  if k + n ≤ data.length then .ok ((data.drop k).take n) else .ub

/-- `memcpy` to `&data[k]`. In utilities.hpp:21-32. -/
def writeBytes (data : List UInt8) (k : Nat) (bs : List UInt8) : Outcome (List UInt8) :=
  if k + bs.length ≤ data.length then .ok (data.take k ++ bs ++ data.drop (k + bs.length)) else .ub

/-- How the compiler and the processor represent values: `dec` and `enc` are the object representations, `cast a b` is
`static_cast<b>` of a value of type `a` (conversions of floating point numbers that do not fit are undefined behaviour), `add a`
is `+=` on variables of type `a`, `lowest` and `highest` are those of `std::numeric_limits`. For the conversions of
utilities.hpp:128-171. -/
structure Codec (K : Type) where
  dec : FT → List UInt8 → K
  enc : FT → K → List UInt8
  cast : FT → FT → K → Outcome K
  add : FT → K → K → Outcome K
  lowest : FT → K
  highest : FT → K

variable {K : Type} (cd : Codec K)

/-- `static_cast<b>` of a value of type `a`. In utilities.hpp:128-171. -/
def castTo (a b : FT) (v : K) : Outcome K := if a = b then .ok v else cd.cast a b v

/-- The functions that read a value of type `t` at an offset and convert it, utilities.hpp:27-31, 50-54, 78-82, 95-97 and
113-117. -/
def readAs (out t : FT) (offset : Nat) (c : Cloud) (i : Nat) : Outcome K :=
  readBytes c.data (i * c.pointStep + offset) t.size >>= fun bs => castTo cd t out (cd.dec t bs)

/-- `create_get_field_data_function<OutT, T>`, utilities.hpp:21-32 and 45-55. -/
def getterTyped (out t : FT) (field : PField) : Outcome (Cloud → Nat → Outcome K) :=
  if t.code ≠ field.datatype then .throws else .ok (readAs cd out t field.offset)

/-- `create_get_field_data_function<OutT>`, utilities.hpp:128-171. -/
def getter (out : FT) (field : PField) : Outcome (Cloud → Nat → Outcome K) :=
  match FT.ofCode field.datatype with
  | none => .throws
  | some t => .ok (readAs cd out t field.offset)

/-- The functions that convert a value and write it at an offset, utilities.hpp:190-193, 214-216, 240-242, 255-256 and
272-276. -/
def writeAs (inT t : FT) (offset : Nat) (c : Cloud) (i : Nat) (v : K) : Outcome Cloud :=
  castTo cd inT t v >>= fun w =>
  writeBytes c.data (i * c.pointStep + offset) (cd.enc t w) >>= fun data => .ok { c with data := data }

/-- `create_set_field_data_function<InT, T>`, utilities.hpp:184-194 and 209-217. -/
def setterTyped (inT t : FT) (field : PField) : Outcome (Cloud → Nat → K → Outcome Cloud) :=
  if t.code ≠ field.datatype then .throws else .ok (writeAs cd inT t field.offset)

/-- `create_set_field_data_function<InT>`, utilities.hpp:287-330. -/
def setter (inT : FT) (field : PField) : Outcome (Cloud → Nat → K → Outcome Cloud) :=
  match FT.ofCode field.datatype with
  | none => .throws
  | some t => .ok (writeAs cd inT t field.offset)

/-- `field_data`, utilities.hpp:376-379. -/
def fieldData (out : FT) (c : Cloud) (field : PField) (i : Nat) : Outcome K := getter cd out field >>= fun get => get c i

/-- `set_field_data`, utilities.hpp:666-670. -/
def setFieldData (inT : FT) (c : Cloud) (field : PField) (i : Nat) (v : K) : Outcome Cloud :=
  setter cd inT field >>= fun set => set c i v

/-! ### Types -/

/-- `is_8bit`, `is_16bit`, `is_32bit`, `is_64bit`, utilities.cpp:251-333 and `is_same_bit_depth`, utilities.hpp:415-453. -/
def isSameBitDepth (type : FT) (datatype : Nat) : Outcome Bool :=
  match FT.ofCode datatype with
  | none => .throws
  | some t =>
    .ok (match type with
      | .int8 | .uint8 => t = .int8 ∨ t = .uint8
      | .int16 | .uint16 => t = .int16 ∨ t = .uint16
      | .int32 | .uint32 | .float32 => t = .int32 ∨ t = .uint32 ∨ t = .float32
      | .float64 => t = .float64)

/-- `set(pointcloud, i, f(get(pointcloud, i)))` for all points; utilities.hpp:348-350, 370-372 and 640-643, utilities.cpp:400-402. -/
def mapField (get : Cloud → Nat → Outcome K) (set : Cloud → Nat → K → Outcome Cloud) (f : K → K) (c : Cloud) : Outcome Cloud :=
  forLoop (sizePoints c) (fun i c => get c i >>= fun v => set c i (f v)) c

/-- `cast_field<type>`, utilities.hpp:332-352. -/
def castField (type : FT) (c : Cloud) (name : String) : Outcome Cloud :=
  getField c name >>= fun field =>
  isSameBitDepth type field.datatype >>= fun same =>
  if same = false then .throws else
  if field.datatype ≠ type.code then
    getter cd type field >>= fun get =>
    let c := { c with fields := updateFirst name (fun f => { f with datatype := type.code }) c.fields }
    setterTyped cd type type { field with datatype := type.code } >>= fun set => mapField get set id c
  else .ok c

section
variable [Mul K]

/-- `cast_field_with_scale<type>`, utilities.hpp:354-374. -/
def castFieldWithScale (type : FT) (c : Cloud) (name : String) (scale : K) : Outcome Cloud :=
  getField c name >>= fun field =>
  isSameBitDepth type field.datatype >>= fun same =>
  if same = false then .throws else
  if field.datatype ≠ type.code then
    getter cd .float64 field >>= fun get =>
    let c := { c with fields := updateFirst name (fun f => { f with datatype := type.code }) c.fields }
    setterTyped cd .float64 type { field with datatype := type.code } >>= fun set => mapField get set (· * scale) c
  else .ok c

/-- `scale_field(pointcloud, field, scale)`, utilities.cpp:396-403. -/
def scaleField (c : Cloud) (field : PField) (scale : K) : Outcome Cloud :=
  getter cd .float64 field >>= fun get =>
  setter cd .float64 field >>= fun set => mapField get set (· * scale) c

/-- `scale_field(pointcloud, name, scale)`, utilities.cpp:405-407. -/
def scaleFieldNamed (c : Cloud) (name : String) (scale : K) : Outcome Cloud :=
  getField c name >>= fun field => scaleField cd c field scale

/-- `scale_and_cast_field<type>(pointcloud, field, scale)`, utilities.hpp:636-644: `type` is not used. -/
def scaleAndCastField (_type : FT) (c : Cloud) (field : PField) (scale : K) : Outcome Cloud := scaleField cd c field scale

end

/-! ### Filter -/

/-- The loop of `filter_max`, utilities.hpp:396-403: `dest.width` and `dest.data` after the points before `i`. -/
def filterStep (get : Cloud → Nat → Outcome K) (le : K → K → Bool) (max : K) (src : Cloud) (i : Nat) (dest : Cloud) :
    Outcome Cloud :=
  get src i >>= fun v =>
  if le v max then
    readBytes src.data (i * src.pointStep) dest.pointStep >>= fun bs =>
    writeBytes dest.data (u32 (dest.width * dest.pointStep)) bs >>= fun data =>
    .ok { dest with data := data, width := u32 (dest.width + 1) }
  else .ok dest

/-- `filter_max<T>(src, dest, field, max)`, utilities.hpp:381-408, for different objects `src` and `dest`; `le` is `<=` on
values of type `T`. -/
def filterMax (le : K → K → Bool) (T : FT) (src dest : Cloud) (field : PField) (max : K) : Outcome Cloud :=
  let dest := { dest with
    header := src.header, height := 1, width := 0, fields := src.fields, isBigendian := src.isBigendian
    pointStep := src.pointStep, data := List.replicate (sizeBytes src) 0, isDense := false }
  getter cd T field >>= fun get =>
  forLoop (sizePoints src) (filterStep get le max src) dest >>= fun dest =>
  let dest := { dest with rowStep := rowStep dest }
  .ok { dest with data := EigenRos.resize dest.data (sizeBytes dest) 0 }

/-- `filter_max<T>(cloud, cloud, field, max)`, utilities.hpp:381-408, where `src` and `dest` are the same object: the first
assignments also change `src`. -/
def filterMaxSelf (le : K → K → Bool) (T : FT) (cloud : Cloud) (field : PField) (max : K) : Outcome Cloud :=
  let cloud := { cloud with height := 1, width := 0, data := [] }
  let cloud := { cloud with data := List.replicate (sizeBytes cloud) 0, isDense := false }
  getter cd T field >>= fun get =>
  forLoop (sizePoints cloud) (fun i cloud => filterStep get le max cloud i cloud) cloud >>= fun cloud =>
  let cloud := { cloud with rowStep := rowStep cloud }
  .ok { cloud with data := EigenRos.resize cloud.data (sizeBytes cloud) 0 }

/-- `filter_max<T>(src, dest, field_name, max)`, utilities.hpp:410-413. -/
def filterMaxNamed (le : K → K → Bool) (T : FT) (src dest : Cloud) (name : String) (max : K) : Outcome Cloud :=
  getField src name >>= fun field => filterMax cd le T src dest field max

/-! ### Fields -/

/-- The loop that appends the new fields, utilities.cpp:24-29. -/
def appendFields (fields : List PField) (names : List String) (datatype : FT) (count : Nat) : List PField :=
  names.foldl (fun fs name =>
    fs ++ [⟨name, match fs.getLast? with
      | none => 0
      | some l => pointStep l, datatype.code, count⟩]) fields

/-- `add_fields`, utilities.cpp:17-39. The loop condition is `i < dest.data.size()`, where `i` grows by `dest.point_step`. -/
def addFields (src : Cloud) (names : List String) (datatype : FT) (count : Nat) : Outcome Cloud :=
  let fields := appendFields src.fields names datatype count
  match fields.getLast? with
  | none => .ub
  | some last =>
    let dest := { src with fields := fields, pointStep := pointStep last }
    let dest := { dest with rowStep := rowStep dest }
    let dest := { dest with data := List.replicate (sizeBytes dest) 0 }
    forLoop ((dest.data.length + dest.pointStep - 1) / dest.pointStep) (fun k dest =>
      readBytes src.data (k * src.pointStep) src.pointStep >>= fun bs =>
      writeBytes dest.data (k * dest.pointStep) bs >>= fun data => .ok { dest with data := data }) dest

/-- `add_field`, utilities.cpp:12-15. -/
def addField (src : Cloud) (name : String) (datatype : FT) (count : Nat) : Outcome Cloud :=
  addFields src [name] datatype count

/-- The loop of `add_unit_vectors`, utilities.cpp:50-56. -/
noncomputable def unitVectorStep (getX getY getZ : Cloud → Nat → Outcome ℝ) (setX setY setZ : Cloud → Nat → ℝ → Outcome Cloud)
    (i : Nat) (dest : Cloud) : Outcome Cloud :=
  getX dest i >>= fun x =>
  getY dest i >>= fun y =>
  getZ dest i >>= fun z =>
  EigenExt.safeNormalise ![x, y, z] >>= fun u =>
  setX dest i (u 0) >>= fun dest =>
  setY dest i (u 1) >>= fun dest =>
  setZ dest i (u 2)

/-- `add_unit_vectors`, utilities.cpp:41-58. -/
noncomputable def addUnitVectors (cd : Codec ℝ) (src : Cloud) : Outcome Cloud :=
  addFields src ["ux", "uy", "uz"] .float32 1 >>= fun dest =>
  getField dest "x" >>= fun x =>
  getter cd .float32 x >>= fun getX =>
  getField dest "y" >>= fun y =>
  getter cd .float32 y >>= fun getY =>
  getField dest "z" >>= fun z =>
  getter cd .float32 z >>= fun getZ =>
  getField dest "ux" >>= fun ux =>
  setterTyped cd .float32 .float32 ux >>= fun setX =>
  getField dest "uy" >>= fun uy =>
  setterTyped cd .float32 .float32 uy >>= fun setY =>
  getField dest "uz" >>= fun uz =>
  setterTyped cd .float32 .float32 uz >>= fun setZ =>
  forLoop (sizePoints dest) (unitVectorStep getX getY getZ setX setY setZ) dest

/-! ### Statistics -/

section
variable [LT K] [DecidableLT K]

/-- `max<T>`, utilities.hpp:587-599. `std::max(a, b)` is `a < b ? b : a`. -/
def maxField (T : FT) (c : Cloud) (field : PField) : Outcome K :=
  if isEmpty c = true then .throws else
  getter cd T field >>= fun get =>
  forLoop (sizePoints c) (fun i m => get c i >>= fun v => .ok (if m < v then v else m)) (cd.lowest T)

/-- `min<T>`, utilities.hpp:617-629. `std::min(a, b)` is `b < a ? b : a`. -/
def minField (T : FT) (c : Cloud) (field : PField) : Outcome K :=
  if isEmpty c = true then .throws else
  getter cd T field >>= fun get =>
  forLoop (sizePoints c) (fun i m => get c i >>= fun v => .ok (if v < m then v else m)) (cd.highest T)

end

section
variable [Field K]

/-- `sum<T>`, utilities.hpp:692-701. -/
def sumField (T : FT) (c : Cloud) (field : PField) : Outcome K :=
  getter cd T field >>= fun get =>
  forLoop (sizePoints c) (fun i s => get c i >>= fun v => cd.add T s v) 0

/-- `mean<T>`, utilities.hpp:606-610. Of an empty cloud it is not a number; the model's value is then meaningless, and every theorem
assumes a point. -/
def meanField (T : FT) (c : Cloud) (field : PField) : Outcome K :=
  sumField cd T c field >>= fun s =>
  castTo cd T .float64 s >>= fun s => castTo cd .float64 T (s / (sizePoints c : K))

/-- `variance<T>(pointcloud, field, mean)`, utilities.hpp:723-733 (of an empty cloud: see `meanField`). -/
def varianceField (T : FT) (c : Cloud) (field : PField) (mean : K) : Outcome K :=
  getter cd .float64 field >>= fun get =>
  forLoop (sizePoints c) (fun i s => get c i >>= fun v => .ok (s + (v - mean) ^ 2)) 0 >>= fun s =>
  castTo cd .float64 T (s / (sizePoints c : K))

/-- `statistics_msgs::SummaryStatistics`. Made in utilities.hpp:332-379. -/
structure Summary (K : Type) where
  label : String
  min : K
  max : K
  mean : K
  variance : K
  count : Nat

/-- `statistics(pointcloud, field)`, utilities.cpp:418-427. -/
def statisticsField [LT K] [DecidableLT K] (c : Cloud) (field : PField) : Outcome (Summary K) :=
  minField cd .float64 c field >>= fun min =>
  maxField cd .float64 c field >>= fun max =>
  meanField cd .float64 c field >>= fun mean =>
  varianceField cd .float64 c field mean >>= fun variance =>
  .ok ⟨field.name, min, max, mean, variance, sizePoints c⟩

/-- `statistics(pointcloud)`, utilities.cpp:429-436, without the header. -/
def statistics [LT K] [DecidableLT K] (c : Cloud) : Outcome (List (Summary K)) :=
  c.fields.foldlM (fun l f => statisticsField cd c f >>= fun s => .ok (l ++ [s])) []

end

end Pcl

end Serpent
