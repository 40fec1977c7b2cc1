import Verif.Model.Synchroniser

/-!
# Specification: which messages belong together

Said of the history of messages alone, without the synchroniser.
-/

namespace Serpent

namespace Sync

/-- The messages of every input come with increasing stamps. -/
def InOrder {n : Nat} {M : Type} (h : List (Arrival n M)) : Prop := h.Pairwise (fun a b => a.input = b.input → a.stamp < b.stamp)

/-- A message of every input with stamp `t` has come in. -/
def AllIn {n : Nat} {M : Type} (h : List (Arrival n M)) (t : Int) : Prop := ∀ i : Fin n, ∃ m : M, ⟨i, t, m⟩ ∈ h

/-- Stamp `t` has been seen, and no stamp from `t` on is there on all inputs. -/
def Open {n : Nat} {M : Type} (h : List (Arrival n M)) (t : Int) : Prop :=
  (∃ i m, (⟨i, t, m⟩ : Arrival n M) ∈ h) ∧ ∀ t', t ≤ t' → ¬ AllIn h t'

/-- At no time are more than `size` different stamps open. -/
def NeverOver {n : Nat} {M : Type} (size : Nat) (h : List (Arrival n M)) : Prop :=
  ∀ p, p <+: h → ∀ ts : List Int, ts.Nodup → (∀ t ∈ ts, Open p t) → ts.length ≤ size

/-- Fewer than `size` different stamps later than `t` are open. -/
def Fits {n : Nat} {M : Type} (size : Nat) (h : List (Arrival n M)) (t : Int) : Prop :=
  ∀ ts : List Int, ts.Nodup → (∀ t' ∈ ts, t < t' ∧ Open h t') → ts.length < size

/-- The stamps that have come in by input `i`, in order. -/
def stamps {n : Nat} {M : Type} (h : List (Arrival n M)) (i : Fin n) : List Int :=
  (h.filter (fun a => decide (a.input = i))).map Arrival.stamp

/-- Every input brings a message for the states 0, 1, 2, …, in order, with the times `T` of the states as stamps. -/
def PerState {n : Nat} {M : Type} (T : Nat → Int) (h : List (Arrival n M)) : Prop :=
  ∀ i, stamps h i = (List.range (stamps h i).length).map T

/-- At no time is an input more than `size` messages ahead of another. -/
def Balanced {n : Nat} {M : Type} (size : Nat) (h : List (Arrival n M)) : Prop :=
  ∀ p, p <+: h → ∀ i j, (stamps p i).length ≤ (stamps p j).length + size

/-- The messages that have arrived at a subscription, in order. -/
def arrived {M : Type} : List (Ev M) → List M
  | [] => []
  | .arrive m :: es => m :: arrived es
  | .take :: es => arrived es

end Sync

end Serpent
