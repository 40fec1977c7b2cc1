import Verif.Lemmas.Arrays
import Mathlib.Algebra.Field.Rat

/-!
# C46, C47, C86: arrays, multi-arrays and matrices in messages and parameters
-/

namespace Serpent

namespace EigenRos

open EigenExt

variable {K : Type}

/-- C46. Writing any matrix into a fixed size array, whatever the array held before, gives the matrix row after row, and
reading it returns the matrix, whatever the destination held before. -/
theorem C46_fixed_array {m n : Nat} (a : List K) (M : Matrix (Fin m) (Fin n) K) (ha : a.length = m * n) :
    ∃ b, toFixedArray a M = .ok b ∧ RowMajor b M ∧ ∀ J : Matrix (Fin m) (Fin n) K, fromFixedArray b J = .ok M := by
  obtain ⟨b, hb, hr⟩ := writeArray_spec a M ha
  exact ⟨b, hb, hr, fun J => hr.read J⟩

/-- C46. Reading any array of the right length gives the matrix it holds, and writing that matrix gives the array again. -/
theorem C46_fixed_array_back {m n : Nat} (a : List K) (ha : a.length = m * n) (J : Matrix (Fin m) (Fin n) K) :
    ∃ M, fromFixedArray a J = .ok M ∧ RowMajor a M ∧ ∀ a' : List K, a'.length = m * n → toFixedArray a' M = .ok a := by
  obtain ⟨M, hM⟩ := RowMajor.exists ha
  refine ⟨M, hM.read J, hM, fun a' ha' => ?_⟩
  obtain ⟨b, hb, hr⟩ := writeArray_spec a' M ha'
  rw [hM.unique hr]
  exact hb

/-- C46. Arrays of variable length: writing resizes and gives the matrix row after row, reading it back returns the matrix. -/
theorem C46_vector [Zero K] {m n : Nat} (a : List K) (M : Matrix (Fin m) (Fin n) K) :
    ∃ b, toVector a M = .ok b ∧ RowMajor b M ∧ ∀ J : Matrix (Fin m) (Fin n) K, fromVector b J = .ok M := by
  obtain ⟨b, hb, hr⟩ := writeArray_spec (resize a (m * n) 0) M (resize_length _ _ _)
  refine ⟨b, hb, hr, fun J => ?_⟩
  unfold fromVector
  rw [if_neg (by rw [hr.1]; simp)]
  exact hr.read J

/-- C46. Reading an array of variable length throws exactly if the length is not the number of coefficients of the
destination; otherwise the result is the matrix the array holds, and no element outside of the array is read. -/
theorem C46_vector_throws {m n : Nat} (a : List K) (J : Matrix (Fin m) (Fin n) K) :
    (fromVector a J = .throws ↔ a.length ≠ m * n) ∧ fromVector a J ≠ .ub ∧
    ∀ M, fromVector a J = .ok M → RowMajor a M := by
  unfold fromVector
  by_cases h : a.length = m * n
  · rw [if_neg (by rw [h]; simp)]
    obtain ⟨M, hM⟩ := RowMajor.exists h
    rw [hM.read J]
    refine ⟨⟨by simp, fun h' => absurd h h'⟩, by simp, fun M' h' => ?_⟩
    rw [← Outcome.ok.inj h']
    exact hM
  · rw [if_pos h]
    exact ⟨by simp [h], by simp, by simp⟩

/-- C46. Covariance messages: exactly the square matrices are accepted, the message holds the dimension and the matrix row
after row, and reading returns the matrix, whatever message object is used. -/
theorem C46_covariance_message [Zero K] {n : Nat} (msg : CovarianceMsg K) (M : Matrix (Fin n) (Fin n) K) :
    ∃ a, toCovariance msg M = .ok ⟨n, a⟩ ∧ RowMajor a M ∧
      ∀ J : Matrix (Fin n) (Fin n) K, fromCovariance ⟨n, a⟩ J = .ok M := by
  obtain ⟨a, ha, hr, hf⟩ := C46_vector msg.matrix M
  refine ⟨a, ?_, hr, hf⟩
  unfold toCovariance
  rw [if_neg (by simp), ha]
  rfl

/-- C46. A matrix that is not square is refused. -/
theorem C46_covariance_throws_iff [Zero K] {m n : Nat} (msg : CovarianceMsg K) (M : Matrix (Fin m) (Fin n) K) :
    (toCovariance msg M = .throws ↔ m ≠ n) ∧ toCovariance msg M ≠ .ub := by
  unfold toCovariance
  obtain ⟨a, ha, -, -⟩ := C46_vector msg.matrix M
  by_cases h : m = n
  · rw [if_neg (by simp [h]), ha]
    simp [h]
  · rw [if_pos h]
    simp [h]

/-- C46. Reading a covariance message: the array must have `dimensions * dimensions` elements. -/
theorem C46_covariance_read (msg : CovarianceMsg K) (J : Matrix (Fin msg.dimensions) (Fin msg.dimensions) K) :
    (fromCovariance msg J = .throws ↔ msg.matrix.length ≠ msg.dimensions * msg.dimensions) ∧ fromCovariance msg J ≠ .ub ∧
    ∀ M, fromCovariance msg J = .ok M → RowMajor msg.matrix M := C46_vector_throws _ _

/-- A 2x3 matrix in a message that held other data of another size. -/
example : toVector [9, 9, 9, 9, 9, 9, 9, (9 : ℚ)] !![1, 2, 3; 4, 5, 6] = .ok [1, 2, 3, 4, 5, 6] := by decide +kernel

example : RowMajor [1, 2, 3, 4, 5, (6 : ℚ)] !![1, 2, 3; 4, 5, 6] := by
  refine ⟨rfl, ?_⟩
  intro r c
  fin_cases r <;> fin_cases c <;> rfl

/-! ### C47: multi-arrays -/

/-- A history of conversions into one message object: the matrices (of any sizes) that were written, in order. -/
def reuse [Zero K] (msg : MultiArray K) : List (Σ m n : Nat, Matrix (Fin m) (Fin n) K) → Outcome (MultiArray K)
  | [] => .ok msg
  | ⟨_, _, M⟩ :: rest => toMultiArray msg M >>= fun msg' => reuse msg' rest

theorem toMultiArray_spec [Zero K] {m n : Nat} (msg : MultiArray K) (M : Matrix (Fin m) (Fin n) K) :
    ∃ data, toMultiArray msg M = .ok ⟨msg.dim ++ [⟨"rows", m, m * n⟩] ++ [⟨"cols", n, n⟩], 0, data⟩ ∧ RowMajor data M := by
  obtain ⟨b, hb, hr⟩ := writeArray_spec (resize msg.data (m * n) 0) M (resize_length _ _ _)
  refine ⟨b, ?_, hr⟩
  unfold toMultiArray
  rw [hb]
  rfl

theorem reuse_spec [Zero K] (msg : MultiArray K) (l : List (Σ m n : Nat, Matrix (Fin m) (Fin n) K)) :
    ∃ msg', reuse msg l = .ok msg' ∧ msg'.dim.length = msg.dim.length + 2 * l.length := by
  induction l generalizing msg with
  | nil => exact ⟨msg, rfl, by simp⟩
  | cons x l ih =>
    obtain ⟨m, n, M⟩ := x
    obtain ⟨data, hd, -⟩ := toMultiArray_spec msg M
    obtain ⟨msg', h, hl⟩ := ih ⟨msg.dim ++ [⟨"rows", m, m * n⟩] ++ [⟨"cols", n, n⟩], 0, data⟩
    refine ⟨msg', ?_, ?_⟩
    · unfold reuse
      rw [hd]
      exact h
    · rw [hl]
      simp only [List.length_append, List.length_cons, List.length_nil]
      omega

/-- C47, the part that holds: converting any matrix into a message object whose layout is empty (a new one), whatever data it
holds, and back returns the matrix. The message is row-major and says so in its layout. Missing: the message object has been
used before (see `C47_fails_reuse`). -/
theorem C47_new_message_partial [Zero K] {m n : Nat} (msg : MultiArray K) (hm : msg.dim = [])
    (M : Matrix (Fin m) (Fin n) K) :
    ∃ data, toMultiArray msg M = .ok ⟨[⟨"rows", m, m * n⟩, ⟨"cols", n, n⟩], 0, data⟩ ∧ RowMajor data M ∧
      ∀ J : Matrix (Fin m) (Fin n) K,
        fromMultiArray ⟨[⟨"rows", m, m * n⟩, ⟨"cols", n, n⟩], 0, data⟩ J = .ok M := by
  obtain ⟨data, hd, hr⟩ := toMultiArray_spec msg M
  rw [hm] at hd
  refine ⟨data, hd, hr, fun J => ?_⟩
  unfold fromMultiArray
  dsimp only
  rw [if_neg (by simp)]
  exact hr.read J

/-- C47 fails: after any history of at least one conversion into the same message object, converting any matrix and reading
it back throws. -/
theorem C47_fails_reuse [Zero K] (l : List (Σ m n : Nat, Matrix (Fin m) (Fin n) K)) (hl : l ≠ []) {m n : Nat}
    (M J : Matrix (Fin m) (Fin n) K) :
    ∃ msg msg', reuse MultiArray.empty l = .ok msg ∧ toMultiArray msg M = .ok msg' ∧ fromMultiArray msg' J = .throws := by
  obtain ⟨msg, hmsg, hlen⟩ := reuse_spec (MultiArray.empty (K := K)) l
  obtain ⟨data, hd, -⟩ := toMultiArray_spec msg M
  refine ⟨msg, _, hmsg, hd, ?_⟩
  unfold fromMultiArray
  have h0 : 0 < l.length := List.length_pos_iff.2 hl
  have : (msg.dim ++ [(⟨"rows", m, m * n⟩ : Dimension)] ++ [(⟨"cols", n, n⟩ : Dimension)]).length > 2 := by
    simp only [List.length_append, List.length_cons, List.length_nil]
    omega
  dsimp only
  split
  · rename_i d0 d1 he
    rw [he] at this
    simp at this
  · rfl

/-- C47. Reading a message: it throws exactly if the layout does not have two dimensions with the size of the destination; it
reads outside of the data exactly if the data is too short for the layout; otherwise each coefficient is the element the
layout says. -/
theorem C47_read_partial {m n : Nat} (msg : MultiArray K) (J : Matrix (Fin m) (Fin n) K) :
    (fromMultiArray msg J = .throws ↔ msg.dim.map (·.size) ≠ [m, n]) ∧
    ∀ d0 d1, msg.dim = [d0, d1] → d0.size = m → d1.size = n →
      (fromMultiArray msg J = .ub ↔ ∃ (r : Fin m) (c : Fin n), msg.data.length ≤ msg.offset + d1.stride * r + c) ∧
      ∀ M, fromMultiArray msg J = .ok M → ∀ (r : Fin m) (c : Fin n),
        msg.data[msg.offset + d1.stride * r + c]? = some (M r c) := by
  constructor
  · unfold fromMultiArray
    split
    · rename_i d0 d1 he
      rw [he]
      by_cases h : d0.size ≠ m ∨ d1.size ≠ n
      · rw [if_pos h]
        simp
        tauto
      · rw [if_neg h]
        have : readArray msg.data msg.offset d1.stride J ≠ .throws := by
          rcases readArray_ub_or_ok msg.data msg.offset d1.stride J with ⟨M, hM, -⟩ | ⟨hub, -⟩
          · rw [hM]; simp
          · rw [hub]; simp
        simp only [this, false_iff, List.map_cons, List.map_nil, not_not]
        push Not at h
        rw [h.1, h.2]
    · rename_i he
      simp only [true_iff]
      intro h
      match hd : msg.dim with
      | [] => rw [hd] at h; simp at h
      | [_] => rw [hd] at h; simp at h
      | [d0, d1] => exact he d0 d1 hd
      | _ :: _ :: _ :: _ => rw [hd] at h; simp at h
  · intro d0 d1 he h0 h1
    have e : fromMultiArray msg J = readArray msg.data msg.offset d1.stride J := by
      unfold fromMultiArray
      rw [he]
      dsimp only
      rw [if_neg (by simp [h0, h1])]
    rw [e]
    rcases readArray_ub_or_ok msg.data msg.offset d1.stride J with ⟨M, hM, hall⟩ | ⟨hub, hex⟩
    · rw [hM]
      constructor
      · simp only [reduceCtorEq, false_iff, not_exists, not_le]
        intro r c
        have := hall r c
        exact (List.getElem?_eq_some_iff.1 this).1
      · intro M' h'
        rw [← Outcome.ok.inj h']
        exact hall
    · rw [hub]
      exact ⟨by simp [hex], by simp⟩

example : toMultiArray (MultiArray.empty (K := ℚ)) !![1, 2, 3; 4, 5, 6] =
    .ok ⟨[⟨"rows", 2, 6⟩, ⟨"cols", 3, 3⟩], 0, [1, 2, 3, 4, 5, 6]⟩ := by decide +kernel

/-- The second conversion into the same object. -/
example : (toMultiArray (MultiArray.empty (K := ℚ)) !![1, 2; 4, 5] >>= fun msg => toMultiArray msg !![1, 2, 3; 4, 5, 6]) =
    .ok ⟨[⟨"rows", 2, 4⟩, ⟨"cols", 2, 2⟩, ⟨"rows", 2, 6⟩, ⟨"cols", 3, 3⟩], 0, [1, 2, 3, 4, 5, 6]⟩ := by decide +kernel

/-- A message with an offset and padding after each row, as other programs may send it. -/
example : fromMultiArray (⟨[⟨"", 2, 8⟩, ⟨"", 2, 3⟩], 1, [7, 1, 2, 7, 3, 4, 7]⟩ : MultiArray ℚ) 0 = .ok !![1, 2; 3, 4] := by
  refine readArray_spec _ 1 3 _ _ ?_
  intro r c
  fin_cases r <;> fin_cases c <;> rfl

/-! ### C86: matrices from parameters -/

theorem param_ok (v : List K) (J M : Matrix (Fin 3) (Fin 3) K) (h : ∀ r c : Fin 3, v[(r : Nat) * 3 + c]? = some (M r c)) :
    forLoop 3 (fun r M => forLoop 3 (fun c M => checkedAt v (r * 3 + c) >>= fun x => setCoeff M r c x) M) J = .ok M := by
  exact fill_spec (fun r c => checkedAt v (r * 3 + c)) J M (fun r c => checkedAt_ok (h r c))

/-- C86. The matrix of a parameter: a missing parameter gives the identity; a list of at least nine numbers gives the first
nine, row after row; a shorter list throws. -/
theorem C86_param [Zero K] [One K] (param : Option (List K)) (J : Matrix (Fin 3) (Fin 3) K) :
    (param = none → matrix3dFromParam param J = .ok 1) ∧
    (∀ v, param = some v → 9 ≤ v.length → ∃ M : Matrix (Fin 3) (Fin 3) K,
      matrix3dFromParam param J = .ok M ∧ RowMajor (v.take 9) M) ∧
    (∀ v, param = some v → v.length < 9 → matrix3dFromParam param J = .throws) := by
  refine ⟨?_, ?_, ?_⟩
  · rintro rfl
    refine param_ok [1, 0, 0, 0, 1, 0, 0, 0, 1] J 1 ?_
    intro r c
    fin_cases r <;> fin_cases c <;> rfl
  · rintro v rfl hv
    obtain ⟨M, hM⟩ := RowMajor.exists (m := 3) (n := 3) (a := v.take 9) (by rw [List.length_take]; omega)
    refine ⟨M, param_ok v J M ?_, hM⟩
    intro r c
    have := hM.2 r c
    rw [List.getElem?_take, if_pos (by omega)] at this
    rw [Nat.mul_comm]
    exact this
  · rintro v rfl hv
    unfold matrix3dFromParam
    match v, hv with
    | [], _ => rfl
    | [_], _ => rfl
    | [_, _], _ => rfl
    | [_, _, _], _ => rfl
    | [_, _, _, _], _ => rfl
    | [_, _, _, _, _], _ => rfl
    | [_, _, _, _, _, _], _ => rfl
    | [_, _, _, _, _, _, _], _ => rfl
    | [_, _, _, _, _, _, _, _], _ => rfl
    | _ :: _ :: _ :: _ :: _ :: _ :: _ :: _ :: _ :: _, h => simp at h; omega

example : matrix3dFromParam (some [1, 2, 3, 4, 5, 6, 7, 8, (9 : ℚ)]) 0 = .ok !![1, 2, 3; 4, 5, 6; 7, 8, 9] := by
  refine param_ok [1, 2, 3, 4, 5, 6, 7, 8, (9 : ℚ)] 0 !![1, 2, 3; 4, 5, 6; 7, 8, 9] ?_
  intro r c
  fin_cases r <;> fin_cases c <;> rfl

end EigenRos

end Serpent
