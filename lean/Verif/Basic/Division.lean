import Mathlib.Algebra.Order.Field.Basic

/-!
# Floating point division

The quotient of two finite doubles. A division by zero does not fail in C++: its result is an infinity or not a number, and
every comparison with "not a number" is false.
-/

namespace Serpent

/-- The value of `a / b`. Used for the baseline, optimisation.cpp:316 and stereo_factor_finder.cpp:341 and 395. -/
inductive Division (K : Type) where
  | num (q : K)
  | posInf
  | negInf
  | nan
deriving DecidableEq, Repr

variable {K : Type} [Field K] [LinearOrder K]

/-- `a / b` for finite `a` and `b` (IEEE 754; a zero divisor is taken to be positive). Used for optimisation.cpp:316. -/
def divide (a b : K) : Division K :=
  if b ≠ 0 then .num (a / b) else if a > 0 then .posInf else if a < 0 then .negInf else .nan

/-- `x <= 0.0`. The check of optimisation.cpp:317. -/
def Division.nonPositive : Division K → Bool
  | .num q => decide (q ≤ 0)
  | .posInf => false
  | .negInf => true
  | .nan => false

/-- `-P[3] / P[0]`: the baseline as computed from the projection matrix of the right camera (optimisation.cpp:316,
stereo_factor_finder.cpp:341 and 395). -/
def baselineOf (p3 p0 : K) : Division K := divide (-p3) p0

theorem divide_of_ne {a b : K} (h : b ≠ 0) : divide a b = .num (a / b) := by unfold divide; rw [if_pos h]

theorem baselineOf_good {p3 p0 : K} (h : 0 < -p3 / p0) : baselineOf p3 p0 = .num (-p3 / p0) := by
  refine divide_of_ne ?_
  rintro rfl
  rw [div_zero] at h
  exact lt_irrefl _ h

end Serpent
