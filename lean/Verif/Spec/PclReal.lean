import Verif.Spec.PclCodec
import Mathlib.Data.Real.Basic

/-!
# A representation of real numbers

The numbers of `Ieee` as real numbers. Conversions and stores round to a nearest value of the type. It shows that the laws of
`Codec.Lawful` can be met by a representation of real numbers.
-/

namespace Serpent

namespace Pcl

namespace Ieee

/-- Values of bytes. -/
noncomputable def decReal (t : FT) (bs : List UInt8) : ℝ := (dec t bs : ℚ)

theorem exists_nearest_real (t : FT) (v : ℝ) :
    ∃ bs : List UInt8, bs.length = t.size ∧
      ∀ bs' : List UInt8, bs'.length = t.size → |decReal t bs - v| ≤ |decReal t bs' - v| := by
  have hfin : {bs : List UInt8 | bs.length = t.size}.Finite := List.finite_length_eq UInt8 t.size
  obtain ⟨bs, h1, h2⟩ := Set.exists_min_image _ (fun bs => |decReal t bs - v|) hfin ⟨List.replicate t.size 0, by simp⟩
  exact ⟨bs, h1, fun bs' h => h2 bs' h⟩

/-- Bytes of a nearest value. -/
noncomputable def encReal (t : FT) (v : ℝ) : List UInt8 := (exists_nearest_real t v).choose

/-- The values of a type. -/
def repReal (t : FT) (v : ℝ) : Prop := ∃ bs : List UInt8, bs.length = t.size ∧ decReal t bs = v

/-- The representation. -/
noncomputable def realCodec : Codec ℝ where
  dec := decReal
  enc := encReal
  cast _ b v := .ok (decReal b (encReal b v))
  add _ a b := .ok (a + b)
  lowest t := (codec.lowest t : ℚ)
  highest t := (codec.highest t : ℚ)

theorem encReal_length (t : FT) (v : ℝ) : (encReal t v).length = t.size := (exists_nearest_real t v).choose_spec.1

theorem decReal_encReal (t : FT) (v : ℝ) (h : repReal t v) : decReal t (encReal t v) = v := by
  obtain ⟨bs, hl, rfl⟩ := h
  have := (exists_nearest_real t (decReal t bs)).choose_spec.2 bs hl
  rw [sub_self, abs_zero, abs_nonpos_iff, sub_eq_zero] at this
  exact this

/-- The laws. -/
theorem realLawful : realCodec.Lawful repReal where
  enc_length := encReal_length
  dec_rep t bs h := ⟨bs, h, rfl⟩
  dec_enc := decReal_encReal
  cast_rep a b v w h := by
    rw [← Outcome.ok.inj h]
    exact ⟨_, encReal_length _ _, rfl⟩
  cast_of_rep a b v h := by
    show Outcome.ok (decReal b (encReal b v)) = _
    rw [decReal_encReal b v h]

end Ieee

end Pcl

end Serpent
