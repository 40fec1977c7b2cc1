import Verif.Spec.PclCloud
import Mathlib.Data.Rat.Floor
import Mathlib.Data.Set.Finite.List
import Mathlib.Data.Set.Finite.Lemmas
import Mathlib.Tactic.Linarith
import Mathlib.Tactic.NormNum
import Mathlib.Tactic.FieldSimp

/-!
# The representation of numbers on the usual machines

Two's complement, IEEE 754 binary32 and binary64, little endian; rounding to a nearest value. It shows that the laws of
`Codec.Lawful` can be met, and serves as the representation in concrete cases. Bit patterns of infinities and NaN are read as 0,
conversions to floating point types do not overflow.
-/

namespace Serpent

namespace Pcl

namespace Ieee

/-- Little endian number. -/
def leNat (bs : List UInt8) : Nat := bs.foldr (fun b n => b.toNat + 256 * n) 0

/-- The `n` bytes of a number, little endian. -/
def leBytes : Nat → Nat → List UInt8
  | 0, _ => []
  | n + 1, k => UInt8.ofNat (k % 256) :: leBytes n (k / 256)

theorem leBytes_length (n k : Nat) : (leBytes n k).length = n := by
  induction n generalizing k with
  | zero => rfl
  | succ n ih => simp [leBytes, ih]

theorem leNat_leBytes (n k : Nat) : leNat (leBytes n k) = k % 256 ^ n := by
  induction n generalizing k with
  | zero => simp [leBytes, leNat, Nat.mod_one]
  | succ n ih =>
    have : leNat (leBytes (n + 1) k) = (UInt8.ofNat (k % 256)).toNat + 256 * leNat (leBytes n (k / 256)) := rfl
    rw [this, ih, UInt8.toNat_ofNat', Nat.mod_mod_of_dvd _ (by norm_num), Nat.pow_succ' (n := n), Nat.mod_mul]

theorem leNat_lt (bs : List UInt8) : leNat bs < 256 ^ bs.length := by
  induction bs with
  | nil => simp [leNat]
  | cons b bs ih =>
    have hb : b.toNat < 256 := b.toNat_lt
    have : leNat (b :: bs) = b.toNat + 256 * leNat bs := rfl
    rw [this, List.length_cons, Nat.pow_succ]
    omega

/-- Two's complement number of `n` bytes. -/
def decSigned (n k : Nat) : ℤ := if 2 * k < 256 ^ n then k else (k : ℤ) - 256 ^ n

/-- IEEE 754 number with `m` bits of mantissa and `e` bits of exponent. -/
def decFloat (m e k : Nat) : ℚ :=
  let frac := k % 2 ^ m
  let expo := k / 2 ^ m % 2 ^ e
  let sign : ℚ := if k / 2 ^ (m + e) = 1 then -1 else 1
  let bias : ℤ := 2 ^ (e - 1) - 1
  if expo = 2 ^ e - 1 then 0
  else if expo = 0 then sign * (frac / 2 ^ m) * 2 ^ (1 - bias)
  else sign * (1 + frac / 2 ^ m) * 2 ^ (expo - bias)

/-- Values of bytes. -/
def dec : FT → List UInt8 → ℚ
  | .int8, bs => (decSigned 1 (leNat bs) : ℤ)
  | .uint8, bs => leNat bs
  | .int16, bs => (decSigned 2 (leNat bs) : ℤ)
  | .uint16, bs => leNat bs
  | .int32, bs => (decSigned 4 (leNat bs) : ℤ)
  | .uint32, bs => leNat bs
  | .float32, bs => decFloat 23 8 (leNat bs)
  | .float64, bs => decFloat 52 11 (leNat bs)

/-- The values of a type. -/
def rep (t : FT) (v : ℚ) : Prop := ∃ bs : List UInt8, bs.length = t.size ∧ dec t bs = v

/-- Floating point types. -/
def isFloat : FT → Bool
  | .float32 | .float64 => true
  | _ => false

instance : Finite UInt8 := Finite.of_injective (fun b : UInt8 => b.toFin) (fun _ _ h => UInt8.toFin_inj.1 h)

theorem exists_nearest (t : FT) (v : ℚ) :
    ∃ bs : List UInt8, bs.length = t.size ∧ ∀ bs' : List UInt8, bs'.length = t.size → |dec t bs - v| ≤ |dec t bs' - v| := by
  have hfin : {bs : List UInt8 | bs.length = t.size}.Finite := List.finite_length_eq UInt8 t.size
  obtain ⟨bs, h1, h2⟩ := Set.exists_min_image _ (fun bs => |dec t bs - v|) hfin
    ⟨List.replicate t.size 0, by simp⟩
  exact ⟨bs, h1, fun bs' h => h2 bs' h⟩

theorem exists_least (t : FT) :
    ∃ v : ℚ, ∀ w, rep t w → v ≤ w := by
  have hfin : {bs : List UInt8 | bs.length = t.size}.Finite := List.finite_length_eq UInt8 t.size
  obtain ⟨bs, -, h2⟩ := Set.exists_min_image _ (fun bs => dec t bs) hfin
    ⟨List.replicate t.size 0, by simp⟩
  exact ⟨dec t bs, fun w ⟨bs', h, e⟩ => e ▸ h2 bs' h⟩

theorem exists_greatest (t : FT) :
    ∃ v : ℚ, ∀ w, rep t w → w ≤ v := by
  have hfin : {bs : List UInt8 | bs.length = t.size}.Finite := List.finite_length_eq UInt8 t.size
  obtain ⟨bs, -, h2⟩ := Set.exists_max_image _ (fun bs => dec t bs) hfin
    ⟨List.replicate t.size 0, by simp⟩
  exact ⟨dec t bs, fun w ⟨bs', h, e⟩ => e ▸ h2 bs' h⟩

/-- Bytes of a value. -/
noncomputable def enc (t : FT) (v : ℚ) : List UInt8 :=
  if isFloat t then (exists_nearest t v).choose else leBytes t.size (⌊v⌋ % 256 ^ t.size).toNat

/-- Truncation towards zero. -/
def trunc (v : ℚ) : ℤ := if 0 ≤ v then ⌊v⌋ else ⌈v⌉

open Classical in
/-- Conversions. -/
noncomputable def cast (a b : FT) (v : ℚ) : Outcome ℚ :=
  if isFloat b then .ok (dec b (enc b v))
  else if rep b (trunc v) then .ok (trunc v)
  else if isFloat a then .ub
  else .ok (dec b (enc b v))

open Classical in
/-- The representation. -/
noncomputable def codec : Codec ℚ where
  dec := dec
  enc := enc
  cast := cast
  add t a b := if isFloat t then .ok (a + b) else if rep t (a + b) then .ok (a + b) else if t = .int32 then .ub
    else .ok (dec t (enc t (a + b)))
  lowest t := (exists_least t).choose
  highest t := (exists_greatest t).choose

theorem enc_length (t : FT) (v : ℚ) : (enc t v).length = t.size := by
  unfold enc
  by_cases h : isFloat t = true
  · rw [if_pos h]; exact (exists_nearest t v).choose_spec.1
  · rw [if_neg h, leBytes_length]

theorem toNat_mod {z : ℤ} {k : Nat} {m : Nat} (hk : k < m) (h : (z - k) % (m : ℤ) = 0) : (z % (m : ℤ)).toNat = k := by
  have h1 : z % (m : ℤ) = (k : ℤ) % m := Int.emod_eq_emod_iff_emod_sub_eq_zero.2 h
  rw [h1, Int.emod_eq_of_lt (by omega) (by omega)]
  rfl

theorem le_round {n : Nat} {z : ℤ} {bs : List UInt8} (hl : bs.length = n) (h : (z - leNat bs) % ((256 ^ n : Nat) : ℤ) = 0) :
    leNat (leBytes n (z % 256 ^ n).toNat) = leNat bs := by
  have hlt := leNat_lt bs
  rw [hl] at hlt
  rw [leNat_leBytes]
  have : (z % (256 : ℤ) ^ n) = z % ((256 ^ n : Nat) : ℤ) := by push_cast; rfl
  rw [this, toNat_mod hlt h, Nat.mod_eq_of_lt hlt]

theorem signed_mod (n k : Nat) : (decSigned n k - k) % ((256 ^ n : Nat) : ℤ) = 0 := by
  unfold decSigned
  split
  · simp
  · have : ((k : ℤ) - 256 ^ n - k) = -((256 ^ n : Nat) : ℤ) := by push_cast; ring
    rw [this]; simp

theorem dec_enc (t : FT) (v : ℚ) (h : rep t v) : dec t (enc t v) = v := by
  obtain ⟨bs, hl, rfl⟩ := h
  unfold enc
  by_cases hf : isFloat t = true
  · rw [if_pos hf]
    have := (exists_nearest t (dec t bs)).choose_spec.2 bs hl
    rw [sub_self, abs_zero, abs_nonpos_iff, sub_eq_zero] at this
    exact this
  · rw [if_neg hf]
    cases t <;> first | exact absurd rfl hf | skip
    · show ((decSigned 1 _ : ℤ) : ℚ) = ((decSigned 1 (leNat bs) : ℤ) : ℚ)
      simp only [dec, Int.floor_intCast, FT.size]
      rw [le_round (n := 1) hl (signed_mod _ _)]
    · simp only [dec, Int.floor_natCast, FT.size]
      rw [le_round (n := 1) (z := leNat bs) hl (by simp)]
    · show ((decSigned 2 _ : ℤ) : ℚ) = ((decSigned 2 (leNat bs) : ℤ) : ℚ)
      simp only [dec, Int.floor_intCast, FT.size]
      rw [le_round (n := 2) hl (signed_mod _ _)]
    · simp only [dec, Int.floor_natCast, FT.size]
      rw [le_round (n := 2) (z := leNat bs) hl (by simp)]
    · show ((decSigned 4 _ : ℤ) : ℚ) = ((decSigned 4 (leNat bs) : ℤ) : ℚ)
      simp only [dec, Int.floor_intCast, FT.size]
      rw [le_round (n := 4) hl (signed_mod _ _)]
    · simp only [dec, Int.floor_natCast, FT.size]
      rw [le_round (n := 4) (z := leNat bs) hl (by simp)]

theorem trunc_intCast (z : ℤ) : trunc (z : ℚ) = z := by
  unfold trunc
  split <;> simp

theorem rep_int {t : FT} (hf : isFloat t = false) {v : ℚ} (h : rep t v) : ∃ z : ℤ, v = z := by
  obtain ⟨bs, -, rfl⟩ := h
  cases t <;> first | (exact Bool.noConfusion hf) | exact ⟨_, rfl⟩

/-- The laws. -/
theorem lawful : codec.Lawful rep where
  enc_length := enc_length
  dec_rep t bs h := ⟨bs, h, rfl⟩
  dec_enc := dec_enc
  cast_rep a b v w h := by
    classical
    change cast a b v = .ok w at h
    unfold cast at h
    by_cases hf : isFloat b = true
    · rw [if_pos hf] at h; cases h; exact ⟨_, enc_length _ _, rfl⟩
    · rw [if_neg hf] at h
      by_cases hr : rep b (trunc v)
      · rw [if_pos hr] at h; cases h; exact hr
      · rw [if_neg hr] at h
        by_cases ha : isFloat a = true
        · rw [if_pos ha] at h; cases h
        · rw [if_neg ha] at h; cases h; exact ⟨_, enc_length _ _, rfl⟩
  cast_of_rep a b v h := by
    classical
    change cast a b v = .ok v
    unfold cast
    by_cases hf : isFloat b = true
    · rw [if_pos hf, dec_enc b v h]
    · obtain ⟨z, rfl⟩ := rep_int (by simpa using hf) h
      rw [if_neg hf, trunc_intCast, if_pos h]

theorem lowest_le (t : FT) (v : ℚ) (h : rep t v) : codec.lowest t ≤ v := (exists_least t).choose_spec v h

theorem le_highest (t : FT) (v : ℚ) (h : rep t v) : v ≤ codec.highest t := (exists_greatest t).choose_spec v h

end Ieee

end Pcl

end Serpent
