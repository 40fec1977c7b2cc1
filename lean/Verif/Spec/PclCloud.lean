import Verif.Model.PclCloud
import Mathlib.Algebra.Order.Field.Basic

/-!
# Specification vocabulary for pointclouds stored as bytes

Independent of how the functions are written: what a well formed cloud is, its points, and the value of a field of a point.
-/

namespace Serpent

namespace Pcl

variable {K : Type}

/-- What is known about the representation of values. `rep t v`: type `t` has the value `v`. -/
structure Codec.Lawful (cd : Codec K) (rep : FT → K → Prop) : Prop where
  /-- a value of type `t` occupies `sizeof(t)` bytes -/
  enc_length : ∀ t v, (cd.enc t v).length = t.size
  /-- bytes stand for a value of the type -/
  dec_rep : ∀ t bs, bs.length = t.size → rep t (cd.dec t bs)
  /-- reading what was written -/
  dec_enc : ∀ t v, rep t v → cd.dec t (cd.enc t v) = v
  /-- the result of a conversion has the new type -/
  cast_rep : ∀ a b v w, cd.cast a b v = .ok w → rep b w
  /-- conversions keep values that the new type has -/
  cast_of_rep : ∀ a b v, rep b v → cd.cast a b v = .ok v

/-- The data of the cloud are `height` rows of `width` points of `point_step` bytes, and their number is a `std::uint32_t`. -/
structure WellFormed (c : Cloud) : Prop where
  row : c.rowStep = c.width * c.pointStep
  length : c.data.length = c.height * c.rowStep
  bytes : c.data.length < 2 ^ 32
  points : c.height * c.width < 2 ^ 32

/-- The number of points. -/
def count (c : Cloud) : Nat := c.height * c.width

/-- `n` bytes from byte `o` of point `i` on. -/
def bytesAt (c : Cloud) (i o n : Nat) : List UInt8 := (c.data.drop (i * c.pointStep + o)).take n

/-- The points of a cloud, as bytes. -/
def points (c : Cloud) : List (List UInt8) := (List.range (count c)).map (fun i => bytesAt c i 0 c.pointStep)

/-- The field has type `t` and its (first) element lies within the point. -/
def HasType (c : Cloud) (f : PField) (t : FT) : Prop := f.datatype = t.code ∧ f.offset + t.size ≤ c.pointStep

/-- The value of a field of type `t` at offset `o` in the bytes of a point. -/
def valueIn (cd : Codec K) (t : FT) (o : Nat) (point : List UInt8) : K := cd.dec t ((point.drop o).take t.size)

/-- The value of field `f`, of type `t`, in point `i`. -/
def value (cd : Codec K) (t : FT) (c : Cloud) (f : PField) (i : Nat) : K := cd.dec t (bytesAt c i f.offset t.size)

/-- Two fields have no byte in common. -/
def Disjoint (f : PField) (t : FT) (g : PField) (u : FT) : Prop :=
  f.offset + t.size ≤ g.offset ∨ g.offset + u.size ≤ f.offset

/-- Everything but the bytes is the same. -/
def SameMeta (c c' : Cloud) : Prop := { c' with data := c.data } = c

end Pcl

end Serpent
