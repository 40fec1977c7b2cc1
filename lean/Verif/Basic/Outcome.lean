/-!
# Outcomes of modelled C++ calls

A call either returns (`ok`), lets an exception escape (`throws`) or has undefined behaviour (`ub`).
Methods of an object are state transformers `M σ α`: they return the outcome together with the state the object is left
in, so a method that throws half-way through its updates is modelled with the half-updated state.
-/

namespace Serpent

/-- Result of a modelled C++ call. -/
inductive Outcome (α : Type) where
  | ok (a : α)
  | throws
  | ub
deriving Repr, DecidableEq

namespace Outcome

/-- Sequencing: an exception or undefined behaviour ends the computation. -/
def bind {α β : Type} (x : Outcome α) (f : α → Outcome β) : Outcome β :=
  match x with
  | ok a => f a
  | throws => throws
  | ub => ub

instance : Monad Outcome where
  pure := ok
  bind := bind

@[simp] theorem pure_eq {α : Type} (a : α) : (pure a : Outcome α) = ok a := rfl
@[simp] theorem bind_ok {α β : Type} (a : α) (f : α → Outcome β) : (ok a >>= f) = f a := rfl
@[simp] theorem bind_throws {α β : Type} (f : α → Outcome β) : ((throws : Outcome α) >>= f) = throws := rfl
@[simp] theorem bind_ub {α β : Type} (f : α → Outcome β) : ((ub : Outcome α) >>= f) = ub := rfl

instance : LawfulMonad Outcome := LawfulMonad.mk' Outcome
  (id_map := fun x => by cases x <;> rfl)
  (pure_bind := fun _ _ => rfl)
  (bind_assoc := fun x _ _ => by cases x <;> rfl)

end Outcome

/-- A method of an object with state `σ`. -/
def M (σ α : Type) : Type := σ → Outcome α × σ

namespace M

variable {σ α β : Type}

/-- Sequencing: the state reached before an exception is kept. -/
def bind (x : M σ α) (f : α → M σ β) : M σ β := fun s =>
  match x s with
  | (.ok a, s') => f a s'
  | (.throws, s') => (.throws, s')
  | (.ub, s') => (.ub, s')

instance : Monad (M σ) where
  pure a := fun s => (.ok a, s)
  bind := bind

/-- Current object state. -/
def get : M σ σ := fun s => (.ok s, s)
/-- Replace part of the object state. -/
def modify (f : σ → σ) : M σ Unit := fun s => (.ok (), f s)
/-- `throw`. -/
def throw : M σ α := fun s => (.throws, s)
/-- Undefined behaviour. -/
def ub : M σ α := fun s => (.ub, s)
/-- A call that does not touch the object. -/
def lift (x : Outcome α) : M σ α := fun s => (x, s)

@[simp] theorem pure_run (a : α) (s : σ) : (pure a : M σ α) s = (.ok a, s) := rfl
theorem bind_run (x : M σ α) (f : α → M σ β) (s : σ) :
    (x >>= f) s = match x s with
      | (.ok a, s') => f a s'
      | (.throws, s') => (.throws, s')
      | (.ub, s') => (.ub, s') := rfl
@[simp] theorem get_bind (f : σ → M σ β) (s : σ) : ((get : M σ σ) >>= f) s = f s s := rfl
@[simp] theorem modify_bind (g : σ → σ) (f : Unit → M σ β) (s : σ) :
    ((modify g : M σ Unit) >>= f) s = f () (g s) := rfl
@[simp] theorem throw_bind (f : α → M σ β) (s : σ) : ((throw : M σ α) >>= f) s = (.throws, s) := rfl
@[simp] theorem ub_bind (f : α → M σ β) (s : σ) : ((ub : M σ α) >>= f) s = (.ub, s) := rfl
@[simp] theorem pure_bind (a : α) (f : α → M σ β) (s : σ) : ((pure a : M σ α) >>= f) s = f a s := rfl
@[simp] theorem modify_run (g : σ → σ) (s : σ) : (modify g : M σ Unit) s = (.ok (), g s) := rfl
@[simp] theorem throw_run (s : σ) : (throw : M σ α) s = (.throws, s) := rfl
@[simp] theorem ub_run (s : σ) : (ub : M σ α) s = (.ub, s) := rfl
@[simp] theorem get_run (s : σ) : (get : M σ σ) s = (.ok s, s) := rfl
@[simp] theorem lift_ok_bind (a : α) (f : α → M σ β) (s : σ) :
    ((lift (.ok a) : M σ α) >>= f) s = f a s := rfl
@[simp] theorem lift_throws_bind (f : α → M σ β) (s : σ) :
    ((lift .throws : M σ α) >>= f) s = (.throws, s) := rfl
@[simp] theorem lift_ub_bind (f : α → M σ β) (s : σ) :
    ((lift .ub : M σ α) >>= f) s = (.ub, s) := rfl
@[simp] theorem lift_run (x : Outcome α) (s : σ) : (lift x : M σ α) s = (x, s) := rfl

end M

end Serpent
