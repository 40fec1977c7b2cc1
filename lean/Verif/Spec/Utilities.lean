import Verif.Model.Utilities

/-!
# Specification of the utilities
-/

namespace Serpent

namespace Utils

variable {A : Type}

/-- The buffer is in stamp order. -/
def Ordered (l : List (Stamped A)) : Prop := l.Pairwise (fun a b => a.stamp ≤ b.stamp)

/-- The buffer is in stamp order, without equal stamps. -/
def StrictlyOrdered (l : List (Stamped A)) : Prop := l.Pairwise (fun a b => a.stamp < b.stamp)

/-- Zero-order hold: each measurement holds from its stamp to the stamp of the next one, the last one to `stop`. -/
def holdTimes (l : List (Stamped A)) (stop : Int) : List (Stamped A × Int) :=
  l.zip (l.tail.map (fun m => m.stamp) ++ [stop])

/-- The parts of `[start, stop]` during which each measurement is the latest one: measurement and length. -/
def segments (l : List (Stamped A)) (start stop : Int) : List (Stamped A × Int) :=
  ((holdTimes l stop).filter (fun x => decide (x.1.stamp ≤ stop ∧ start < x.2))).map
    (fun x => (x.1, min x.2 stop - max x.1.stamp start))

end Utils

end Serpent
