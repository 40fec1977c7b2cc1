import Verif.Basic.Keeps

/-!
# Pre- and postconditions of methods

`Triple P m Q E`: started in a state satisfying `P`, if `m` returns `a` then `Q a` holds of the state it leaves, and if it
throws or has undefined behaviour then `E` holds of the state it leaves.
-/

namespace Serpent

namespace M

variable {σ α β : Type} {P P' : σ → Prop} {Q Q' : α → σ → Prop} {E E' : σ → Prop}

/-- Pre- and postcondition with an exceptional postcondition. -/
def Triple (P : σ → Prop) (m : M σ α) (Q : α → σ → Prop) (E : σ → Prop) : Prop :=
  ∀ s, P s → match m s with
    | (.ok a, s') => Q a s'
    | (.throws, s') => E s'
    | (.ub, s') => E s'

theorem Triple.bind {m : M σ α} {f : α → M σ β} {R : β → σ → Prop} (hm : Triple P m Q E)
    (hf : ∀ a, Triple (Q a) (f a) R E) : Triple P (m >>= f) R E := by
  intro s hs
  have h1 := hm s hs
  rw [bind_run]
  rcases hr : m s with ⟨o, s'⟩
  rw [hr] at h1
  cases o with
  | ok a => exact hf a s' h1
  | throws => exact h1
  | ub => exact h1

theorem Triple.pure {a : α} (h : ∀ s, P s → Q a s) : Triple P (pure a : M σ α) Q E := fun s hs => h s hs
theorem Triple.throw (h : ∀ s, P s → E s) : Triple P (M.throw : M σ α) Q E := fun s hs => h s hs
theorem Triple.ub (h : ∀ s, P s → E s) : Triple P (M.ub : M σ α) Q E := fun s hs => h s hs
theorem Triple.get {Q : σ → σ → Prop} (h : ∀ s, P s → Q s s) : Triple P (M.get : M σ σ) Q E := fun s hs => h s hs
theorem Triple.modify {g : σ → σ} {Q : Unit → σ → Prop} (h : ∀ s, P s → Q () (g s)) :
    Triple P (M.modify g) Q E := fun s hs => h s hs

theorem Triple.ite {c : Prop} [Decidable c] {m n : M σ α} (hm : c → Triple P m Q E) (hn : ¬ c → Triple P n Q E) :
    Triple P (if c then m else n) Q E := by
  split
  · rename_i h; exact hm h
  · rename_i h; exact hn h

theorem Triple.conseq {m : M σ α} (h : Triple P m Q E) (hp : ∀ s, P' s → P s) (hq : ∀ a s, Q a s → Q' a s)
    (he : ∀ s, E s → E' s) : Triple P' m Q' E' := by
  intro s hs
  have h1 := h s (hp s hs)
  rcases hr : m s with ⟨o, s'⟩
  rw [hr] at h1
  cases o with
  | ok a => exact hq a s' h1
  | throws => exact he s' h1
  | ub => exact he s' h1

theorem Triple.pre {m : M σ α} (h : Triple P m Q E) (hp : ∀ s, P' s → P s) : Triple P' m Q E :=
  h.conseq hp (fun _ _ h => h) (fun _ h => h)

theorem Triple.lift {x : Outcome α} (h : ∀ s, P s → match x with
    | .ok a => Q a s | .throws => E s | .ub => E s) : Triple P (M.lift x) Q E := by
  intro s hs
  have := h s hs
  cases x <;> exact this

/-- A kept predicate as a triple. -/
theorem Triple.of_keeps {m : M σ α} (h : Keeps P m) : Triple P m (fun _ => P) P := by
  intro s hs
  have h1 := h s hs
  rcases hr : m s with ⟨o, s'⟩
  rw [hr] at h1
  cases o <;> exact h1

/-- A pure precondition. -/
theorem Triple.pure_pre {c : Prop} {m : M σ α} (h : c → Triple P m Q E) : Triple (fun s => c ∧ P s) m Q E :=
  fun s hs => h hs.1 s hs.2

theorem Triple.ok {m : M σ α} (h : Triple P m Q E) {s s' : σ} {a : α} (hs : P s) (hr : m s = (.ok a, s')) : Q a s' := by
  have := h s hs
  rw [hr] at this
  exact this

theorem Triple.fail {m : M σ α} (h : Triple P m Q E) {s s' : σ} {o : Outcome α} (hs : P s) (hr : m s = (o, s'))
    (ho : ∀ a, o ≠ .ok a) : E s' := by
  have := h s hs
  rw [hr] at this
  cases o with
  | ok a => exact absurd rfl (ho a)
  | throws => exact this
  | ub => exact this

end M

end Serpent
