import Verif.Model.Arrays
import Verif.Spec.Arrays
import Mathlib.Tactic.Ring

/-!
# Lemmas about loops over arrays and matrices
-/

namespace Serpent

namespace EigenRos

open EigenExt

variable {K σ : Type}

theorem forLoop_zero (body : Nat → σ → Outcome σ) (s : σ) : forLoop 0 body s = .ok s := rfl

theorem forLoop_succ (n : Nat) (body : Nat → σ → Outcome σ) (s : σ) :
    forLoop (n + 1) body s = forLoop n body s >>= body n := by
  unfold forLoop
  rw [List.range_succ, List.foldlM_append]
  congr 1
  funext s'
  simp only [List.foldlM]
  cases body n s' <;> rfl

/-- Rule for loops that do not throw. -/
theorem forLoop_inv (P : Nat → σ → Prop) {n : Nat} {body : Nat → σ → Outcome σ} {s : σ} (h0 : P 0 s)
    (hs : ∀ i s, i < n → P i s → ∃ s', body i s = .ok s' ∧ P (i + 1) s') :
    ∃ s', forLoop n body s = .ok s' ∧ P n s' := by
  induction n with
  | zero => exact ⟨s, rfl, h0⟩
  | succ n ih =>
    obtain ⟨t, ht, hP⟩ := ih (fun i s hi => hs i s (by omega))
    obtain ⟨u, hu, hP'⟩ := hs n t (by omega) hP
    exact ⟨u, by rw [forLoop_succ, ht, Outcome.bind_ok, hu], hP'⟩

theorem setAt_ok {a : List K} {i : Nat} (x : K) (h : i < a.length) : setAt a i x = .ok (a.set i x) := if_pos h

theorem getAt_ok {a : List K} {i : Nat} {x : K} (h : a[i]? = some x) : getAt a i = .ok x := by unfold getAt; rw [h]

theorem checkedAt_ok {a : List K} {i : Nat} {x : K} (h : a[i]? = some x) : checkedAt a i = .ok x := by
  unfold checkedAt; rw [h]

theorem coeff_fin {m n : Nat} (M : Matrix (Fin m) (Fin n) K) {r c : Nat} (hr : r < m) (hc : c < n) :
    coeff M r c = .ok (M ⟨r, hr⟩ ⟨c, hc⟩) := by
  unfold coeff; rw [dif_pos ⟨hr, hc⟩]

theorem resize_length (a : List K) (n : Nat) (d : K) : (resize a n d).length = n := by
  unfold resize
  rw [List.length_append, List.length_take, List.length_replicate]
  omega

theorem index_lt {m n r c : Nat} (hr : r < m) (hc : c < n) : n * r + c < m * n := by
  calc n * r + c < n * r + n := by omega
    _ = n * (r + 1) := by ring
    _ ≤ n * m := Nat.mul_le_mul_left _ hr
    _ = m * n := Nat.mul_comm _ _

theorem index_inj {n r c r' c' : Nat} (hc : c < n) (hc' : c' < n) (h : n * r + c = n * r' + c') : r = r' ∧ c = c' := by
  have h1 : (n * r + c) / n = r := by
    rw [Nat.mul_add_div (by omega), Nat.div_eq_of_lt hc]; omega
  have h2 : (n * r' + c') / n = r' := by
    rw [Nat.mul_add_div (by omega), Nat.div_eq_of_lt hc']; omega
  have : r = r' := by rw [← h1, ← h2, h]
  subst this
  omega

/-- Writing a matrix into an array of the right length. -/
theorem writeArray_spec {m n : Nat} (a : List K) (M : Matrix (Fin m) (Fin n) K) (ha : a.length = m * n) :
    ∃ b, writeArray a M = .ok b ∧ RowMajor b M := by
  have outer := forLoop_inv (σ := List K)
    (fun k b => b.length = m * n ∧ ∀ (r : Fin m) (c : Fin n), (r : Nat) < k → b[n * r + c]? = some (M r c))
    (n := m) (body := fun r a => forLoop n (fun c a => coeff M r c >>= fun x => setAt a (n * r + c) x) a) (s := a)
    ⟨ha, by intro r c h; omega⟩ ?_
  · obtain ⟨b, hb, hl, h⟩ := outer
    exact ⟨b, hb, hl, fun r c => h r c r.2⟩
  · intro k b hk ⟨hl, hb⟩
    have inner := forLoop_inv (σ := List K)
      (fun j d => d.length = m * n ∧
        (∀ (r : Fin m) (c : Fin n), (r : Nat) < k → d[n * r + c]? = some (M r c)) ∧
        ∀ c : Fin n, (c : Nat) < j → d[n * k + c]? = some (M ⟨k, hk⟩ c))
      (n := n) (body := fun c a => coeff M k c >>= fun x => setAt a (n * k + c) x) (s := b)
      ⟨hl, hb, by intro c h; omega⟩ ?_
    · obtain ⟨d, hd, hl', h1, h2⟩ := inner
      refine ⟨d, hd, hl', fun r c hr => ?_⟩
      rcases Nat.lt_succ_iff_lt_or_eq.1 hr with h | h
      · exact h1 r c h
      · have : r = ⟨k, hk⟩ := Fin.ext h
        subst this
        exact h2 c c.2
    · intro j d hj ⟨hl', h1, h2⟩
      have hlt : n * k + j < d.length := by rw [hl']; exact index_lt hk hj
      refine ⟨d.set (n * k + j) (M ⟨k, hk⟩ ⟨j, hj⟩), ?_, ?_, ?_, ?_⟩
      · rw [coeff_fin M hk hj, Outcome.bind_ok, setAt_ok _ hlt]
      · rw [List.length_set, hl']
      · intro r c hr
        rw [List.getElem?_set_ne]
        · exact h1 r c hr
        · intro h
          have := (index_inj hj c.2 h).1
          omega
      · intro c hc
        rcases Nat.lt_succ_iff_lt_or_eq.1 hc with h | h
        · rw [List.getElem?_set_ne]
          · exact h2 c h
          · omega
        · have : c = ⟨j, hj⟩ := Fin.ext h
          subst this
          rw [List.getElem?_set_self hlt]

/-- Filling a matrix from any source of coefficients. -/
theorem fill_spec {m n : Nat} (get : Nat → Nat → Outcome K) (J M : Matrix (Fin m) (Fin n) K)
    (h : ∀ (r : Fin m) (c : Fin n), get r c = .ok (M r c)) :
    forLoop m (fun r M => forLoop n (fun c M => get r c >>= fun x => setCoeff M r c x) M) J = .ok M := by
  have outer := forLoop_inv (σ := Matrix (Fin m) (Fin n) K)
    (fun k N => ∀ (r : Fin m) (c : Fin n), (r : Nat) < k → N r c = M r c)
    (n := m)
    (body := fun r M => forLoop n (fun c M => get r c >>= fun x => setCoeff M r c x) M) (s := J)
    (by intro r c h; omega) ?_
  · obtain ⟨N, hN, hM⟩ := outer
    have : N = M := by funext r c; exact hM r c r.2
    rw [← this]
    exact hN
  · intro k N hk hN
    have inner := forLoop_inv (σ := Matrix (Fin m) (Fin n) K)
      (fun j L => (∀ (r : Fin m) (c : Fin n), (r : Nat) < k → L r c = M r c) ∧
        ∀ c : Fin n, (c : Nat) < j → L ⟨k, hk⟩ c = M ⟨k, hk⟩ c)
      (n := n) (body := fun c M => get k c >>= fun x => setCoeff M k c x) (s := N)
      ⟨hN, by intro c h; omega⟩ ?_
    · obtain ⟨L, hL, h1, h2⟩ := inner
      refine ⟨L, hL, fun r c hr => ?_⟩
      rcases Nat.lt_succ_iff_lt_or_eq.1 hr with h | h
      · exact h1 r c h
      · have : r = ⟨k, hk⟩ := Fin.ext h
        subst this
        exact h2 c c.2
    · intro j L hj ⟨h1, h2⟩
      refine ⟨fun i l => if (i : Nat) = k ∧ (l : Nat) = j then M ⟨k, hk⟩ ⟨j, hj⟩ else L i l, ?_, ?_, ?_⟩
      · rw [h ⟨k, hk⟩ ⟨j, hj⟩, Outcome.bind_ok]
        unfold setCoeff
        rw [if_pos ⟨hk, hj⟩]
      · intro r c hr
        dsimp only
        rw [if_neg (by omega)]
        exact h1 r c hr
      · intro c hc
        dsimp only
        by_cases e : (c : Nat) = j
        · rw [if_pos ⟨rfl, e⟩]
          congr 1
          exact Fin.ext e.symm
        · rw [if_neg (by omega)]
          exact h2 c (by omega)

/-- Reading a matrix from an array in which all needed elements exist. -/
theorem readArray_spec {m n : Nat} (a : List K) (start stride : Nat) (J M : Matrix (Fin m) (Fin n) K)
    (h : ∀ (r : Fin m) (c : Fin n), a[start + stride * r + c]? = some (M r c)) : readArray a start stride J = .ok M :=
  fill_spec (fun r c => getAt a (start + stride * r + c)) J M (fun r c => getAt_ok (h r c))

/-- Reading an array that is too short has undefined behaviour. -/
theorem readArray_ub_or_ok {m n : Nat} (a : List K) (start stride : Nat) (J : Matrix (Fin m) (Fin n) K) :
    (∃ M, readArray a start stride J = .ok M ∧ ∀ (r : Fin m) (c : Fin n), a[start + stride * r + c]? = some (M r c)) ∨
    (readArray a start stride J = .ub ∧ ∃ (r : Fin m) (c : Fin n), a.length ≤ start + stride * r + c) := by
  by_cases h : ∀ (r : Fin m) (c : Fin n), start + stride * r + c < a.length
  · left
    refine ⟨fun r c => a[start + stride * r + c]'(h r c), ?_, ?_⟩
    · exact readArray_spec a start stride J _ (fun r c => List.getElem?_eq_getElem (h r c))
    · intro r c; exact List.getElem?_eq_getElem (h r c)
  · right
    push Not at h
    refine ⟨?_, h⟩
    obtain ⟨r0, c0, h0⟩ := h
    have inner : ∀ (k : Nat) (hk : k < m) (j : Nat) (_ : j ≤ n) (N : Matrix (Fin m) (Fin n) K),
        (∃ L, forLoop j (fun c M => getAt a (start + stride * k + c) >>= fun x => setCoeff M k c x) N = .ok L ∧
          ∀ c < j, start + stride * k + c < a.length) ∨
        forLoop j (fun c M => getAt a (start + stride * k + c) >>= fun x => setCoeff M k c x) N = .ub := by
      intro k hk j hj N
      induction j with
      | zero => exact Or.inl ⟨N, rfl, by omega⟩
      | succ j ih =>
        rcases ih (by omega) with ⟨L, hL, hlt⟩ | hub
        · by_cases hb : start + stride * k + j < a.length
          · left
            refine ⟨fun i l => if (i : Nat) = k ∧ (l : Nat) = j then a[start + stride * k + j] else L i l, ?_, ?_⟩
            · rw [forLoop_succ, hL, Outcome.bind_ok, getAt_ok (List.getElem?_eq_getElem hb), Outcome.bind_ok]
              unfold setCoeff
              rw [if_pos ⟨hk, by omega⟩]
            · intro c hc
              rcases Nat.lt_succ_iff_lt_or_eq.1 hc with h | h
              · exact hlt c h
              · rw [h]; exact hb
          · right
            rw [forLoop_succ, hL, Outcome.bind_ok]
            unfold getAt
            rw [List.getElem?_eq_none (by omega)]
            rfl
        · right
          rw [forLoop_succ, hub]; rfl
    have outer : ∀ (k : Nat) (_ : k ≤ m) (N : Matrix (Fin m) (Fin n) K),
        (∃ L, forLoop k (fun r M => forLoop n (fun c M => getAt a (start + stride * r + c) >>= fun x => setCoeff M r c x) M) N
          = .ok L ∧ ∀ r < k, ∀ c < n, start + stride * r + c < a.length) ∨
        forLoop k (fun r M => forLoop n (fun c M => getAt a (start + stride * r + c) >>= fun x => setCoeff M r c x) M) N =
          .ub := by
      intro k hk N
      induction k with
      | zero => exact Or.inl ⟨N, rfl, by omega⟩
      | succ k ih =>
        rcases ih (by omega) with ⟨L, hL, hlt⟩ | hub
        · rcases inner k (by omega) n le_rfl L with ⟨L', hL', hlt'⟩ | hub
          · left
            refine ⟨L', by rw [forLoop_succ, hL, Outcome.bind_ok]; exact hL', ?_⟩
            intro r hr c hc
            rcases Nat.lt_succ_iff_lt_or_eq.1 hr with h | h
            · exact hlt r h c hc
            · rw [h]; exact hlt' c hc
          · right
            rw [forLoop_succ, hL, Outcome.bind_ok]; exact hub
        · right
          rw [forLoop_succ, hub]; rfl
    rcases outer m le_rfl J with ⟨L, _, hlt⟩ | hub
    · exact absurd (hlt r0 r0.2 c0 c0.2) (by omega)
    · exact hub

/-- An array is determined by the matrix it holds. -/
theorem _root_.Serpent.RowMajor.unique {m n : Nat} {a b : List K} {M : Matrix (Fin m) (Fin n) K} (ha : RowMajor a M) (hb : RowMajor b M) :
    a = b := by
  apply List.ext_getElem?
  intro i
  by_cases hi : i < m * n
  · have hn : 0 < n := by
      rcases Nat.eq_zero_or_pos n with h | h
      · rw [h] at hi; simp at hi
      · exact h
    have e : n * (i / n) + i % n = i := Nat.div_add_mod i n
    have h1 := ha.2 ⟨i / n, Nat.div_lt_of_lt_mul (by rw [Nat.mul_comm]; exact hi)⟩ ⟨i % n, Nat.mod_lt _ hn⟩
    have h2 := hb.2 ⟨i / n, Nat.div_lt_of_lt_mul (by rw [Nat.mul_comm]; exact hi)⟩ ⟨i % n, Nat.mod_lt _ hn⟩
    dsimp only at h1 h2
    rw [e] at h1 h2
    rw [h1, h2]
  · rw [List.getElem?_eq_none (by rw [ha.1]; omega), List.getElem?_eq_none (by rw [hb.1]; omega)]

/-- Every array of the right length holds a matrix. -/
theorem _root_.Serpent.RowMajor.exists {m n : Nat} {a : List K} (ha : a.length = m * n) : ∃ M : Matrix (Fin m) (Fin n) K, RowMajor a M :=
  ⟨fun r c => a[n * r + c]'(by rw [ha]; exact index_lt r.2 c.2), ha,
    fun r c => List.getElem?_eq_getElem _⟩

theorem _root_.Serpent.RowMajor.read {m n : Nat} {a : List K} {M : Matrix (Fin m) (Fin n) K} (h : RowMajor a M)
    (J : Matrix (Fin m) (Fin n) K) : readArray a 0 n J = .ok M :=
  readArray_spec a 0 n J M (fun r c => by rw [Nat.zero_add]; exact h.2 r c)

end EigenRos

end Serpent
