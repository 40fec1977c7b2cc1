import Verif.Basic.Outcome

/-!
# State predicates kept by a method

`Keeps P m`: whatever `m` returns (value, exception or undefined behaviour), `P` holds after it if it held before.
-/

namespace Serpent

namespace M

variable {σ α β γ : Type} {P : σ → Prop}

/-- `P` is kept by `m`, on every exit path. -/
def Keeps (P : σ → Prop) (m : M σ α) : Prop := ∀ s, P s → P (m s).2

theorem Keeps.pure (a : α) : Keeps P (pure a : M σ α) := fun _ h => h
theorem Keeps.throw : Keeps P (M.throw : M σ α) := fun _ h => h
theorem Keeps.ub : Keeps P (M.ub : M σ α) := fun _ h => h
theorem Keeps.lift (x : Outcome α) : Keeps P (M.lift x : M σ α) := fun _ h => h
theorem Keeps.get : Keeps P (M.get : M σ σ) := fun _ h => h
theorem Keeps.modify {g : σ → σ} (hg : ∀ s, P s → P (g s)) : Keeps P (M.modify g) := hg

theorem Keeps.bind {m : M σ α} {f : α → M σ β} (hm : Keeps P m) (hf : ∀ a, Keeps P (f a)) :
    Keeps P (m >>= f) := by
  intro s hs
  have h1 := hm s hs
  rw [bind_run]
  revert h1
  rcases m s with ⟨o, s'⟩
  cases o with
  | ok a => intro h1; exact hf a s' h1
  | throws => intro h1; exact h1
  | ub => intro h1; exact h1

theorem Keeps.ite {c : Prop} [Decidable c] {m n : M σ α} (hm : Keeps P m) (hn : Keeps P n) :
    Keeps P (if c then m else n) := by
  split
  · exact hm
  · exact hn

theorem keeps_field {f : σ → γ} {m : M σ α} (h : ∀ c, Keeps (fun s => f s = c) m) (s : σ) : f (m s).2 = f s :=
  h (f s) s rfl

end M

end Serpent
